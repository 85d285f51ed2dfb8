import Verif.Proofs.Float
import Verif.Proofs.PyInt
import Verif.Proofs.Uuid
import Verif.Spec.SchemaLoad
import Verif.Proofs.Schema
/-!
# Lemmas: which JSON documents are loaded
-/

namespace Verif

/-! ## keys and single fields -/

theorem hasUnknown_iff (keys : List PyStr) (d : List (PyStr × Json)) : hasUnknown keys d = false ↔ OnlyKeys keys d := by
  unfold hasUnknown OnlyKeys
  rw [List.any_eq_false]
  constructor
  · intro h k v hm
    simpa using h (k, v) hm
  · rintro h ⟨k, v⟩ hm
    simpa using h k v hm

/-- the conversion of the library and the kind of value it accepts -/
structure Converts {α : Type} (conv : Json → Option α) (P : Json → α → Prop) : Prop where
  iff : ∀ j a, conv j = some a ↔ P j a
  null : conv .null = none

theorem Converts.notNull {α : Type} {conv : Json → Option α} {P : Json → α → Prop} (h : Converts conv P) {a : α} : ¬ P .null a := by
  intro hp
  have := (h.iff _ _).2 hp
  rw [h.null] at this
  cases this

theorem converts_str : Converts convStr IsText := by
  refine ⟨fun j a => ?_, rfl⟩
  constructor
  · intro h
    cases j <;> simp only [convStr, reduceCtorEq, Option.some.injEq] at h
    subst h
    exact ⟨_⟩
  · rintro ⟨⟩; rfl

theorem converts_uuid : Converts convUuid IsUuid := by
  refine ⟨fun j a => ?_, rfl⟩
  constructor
  · intro h
    cases j <;> simp only [convUuid, reduceCtorEq] at h
    exact ⟨_, _, (parseUuid_iff _ _).1 h⟩
  · rintro ⟨s, n, h⟩; exact (parseUuid_iff _ _).2 h

theorem converts_int : Converts convInt IsInteger := by
  refine ⟨fun j a => ?_, rfl⟩
  constructor
  · intro h
    cases j <;> simp only [convInt, reduceCtorEq, Option.some.injEq] at h
    · subst h; exact .number _
    · exact .float _ _ ((toInt_iff _ _).1 h)
    · exact .text _ _ ((pyInt_iff _ _).1 h)
  · rintro (_ | ⟨f, i, h⟩ | ⟨s, i, h⟩)
    · rfl
    · exact (toInt_iff _ _).2 h
    · exact (pyInt_iff _ _).2 h

/-- what `getattr` finds in the enum -/
inductive IsTypeArg : Json → TypeArg → Prop
  | name {j : Json} {t : DataElementDataType} (h : IsDataType j t) : IsTypeArg j (.type (some t))
  | signature : IsTypeArg (.str py!"__text_signature__") (.type none)
  | other (s : PyStr) (h : s ∈ dataTypeAttributes) : IsTypeArg (.str s) .other

theorem converts_type : Converts convDataType IsTypeArg := by
  refine ⟨fun j a => ?_, rfl⟩
  constructor
  · intro h
    cases j <;> simp only [convDataType, reduceCtorEq] at h
    split at h
    · next hs => cases h; subst hs; exact .name .text
    · split at h
      · next hs => cases h; subst hs; exact .name .datetime
      · split at h
        · next hs => cases h; subst hs; exact .name .valuePool
        · split at h
          · next hs => cases h; subst hs; exact .signature
          · split at h
            · next hs => cases h; exact .other _ hs
            · cases h
  · rintro (⟨⟨⟩⟩ | _ | ⟨s, h⟩)
    · rfl
    · rfl
    · rfl
    · rfl
    · have h1 : ∀ s ∈ dataTypeAttributes, s ≠ py!"TEXT" ∧ s ≠ py!"DATETIME" ∧ s ≠ py!"VALUE_POOL" ∧ s ≠ py!"__text_signature__" := by
        decide +kernel
      obtain ⟨n1, n2, n3, n4⟩ := h1 s h
      simp only [convDataType]
      rw [if_neg n1, if_neg n2, if_neg n3, if_neg n4, if_pos h]

theorem loadField_some {α : Type} (o : FieldOpts) (conv : Json → Option α) (key : PyStr) (d : List (PyStr × Json)) (j : Json)
    (hg : dictGet key d = some j) (hj : j ≠ .null) : loadField o conv key d = match conv j with
      | none => .invalid
      | some a => .value (some a) := by
  unfold loadField
  rw [hg]
  cases j <;> first | rfl | exact absurd rfl hj

theorem loadField_none {α : Type} (o : FieldOpts) (conv : Json → Option α) (key : PyStr) (d : List (PyStr × Json))
    (hg : dictGet key d = none) : loadField o conv key d =
      if o.required then .invalid else if o.defaultNone then .value none else .missing := by
  unfold loadField
  rw [hg]

theorem loadField_null {α : Type} (o : FieldOpts) (conv : Json → Option α) (key : PyStr) (d : List (PyStr × Json))
    (hg : dictGet key d = some .null) : loadField o conv key d = if o.allowNone || o.defaultNone then .value none else .invalid := by
  unfold loadField
  rw [hg]

section
variable {α : Type} {conv : Json → Option α} {P : Json → α → Prop} (hc : Converts conv P) (key : PyStr) (d : List (PyStr × Json))
include hc

theorem loadField_optional (o : FieldOpts) (ho : o.required = false) (h : o.allowNone = true ∨ o.defaultNone = true) (dflt : Option α)
    (hd : o.defaultNone = true → dflt = none) (x : Option α) :
    (loadField o conv key d).isInvalid = false ∧ (loadField o conv key d).getD dflt = x ↔ Optional P dflt (dictGet key d) x := by
  have hn : (o.allowNone || o.defaultNone) = true := by simpa using h
  cases hg : dictGet key d with
  | none =>
    rw [loadField_none _ _ _ _ hg]
    simp only [ho, Bool.false_eq_true, if_false]
    constructor
    · rintro ⟨_, rfl⟩
      split
      · next h0 => rw [hd h0]; exact .missing
      · exact .missing
    · rintro ⟨⟩
      split
      · next h0 => rw [hd h0]; exact ⟨rfl, rfl⟩
      · exact ⟨rfl, rfl⟩
  | some j =>
    by_cases hj : j = .null
    · subst hj
      rw [loadField_null _ _ _ _ hg]
      simp only [hn, if_true]
      constructor
      · rintro ⟨_, rfl⟩; exact .null
      · rintro (_ | _ | h)
        · exact ⟨rfl, rfl⟩
        · exact absurd h hc.notNull
    · rw [loadField_some _ _ _ _ _ hg hj]
      cases hcj : conv j with
      | none =>
        simp only [Loaded.isInvalid, Bool.true_eq_false, false_and, false_iff]
        rintro (_ | _ | h)
        · exact hj rfl
        · rw [(hc.iff _ _).2 h] at hcj; cases hcj
      | some a =>
        constructor
        · rintro ⟨_, rfl⟩; exact .value ((hc.iff _ _).1 hcj)
        · rintro (_ | _ | h)
          · exact absurd rfl hj
          · rw [(hc.iff _ _).2 h] at hcj; cases hcj; exact ⟨rfl, rfl⟩

theorem loadField_given (x : Option α) :
    (loadField { required := true } conv key d).isInvalid = false ∧ (loadField { required := true } conv key d).getD none = x ↔
      ∃ a, x = some a ∧ Given P (dictGet key d) a := by
  cases hg : dictGet key d with
  | none =>
    rw [loadField_none _ _ _ _ hg]
    simp only [if_true, Loaded.isInvalid, Bool.true_eq_false, false_and, false_iff]
    rintro ⟨a, _, ⟨⟩⟩
  | some j =>
    by_cases hj : j = .null
    · subst hj
      rw [loadField_null _ _ _ _ hg]
      simp only [Bool.or_self, Bool.false_eq_true, if_false, Loaded.isInvalid, Bool.true_eq_false, false_and, false_iff]
      rintro ⟨a, _, ⟨h⟩⟩
      exact hc.notNull h
    · rw [loadField_some _ _ _ _ _ hg hj]
      cases hcj : conv j with
      | none =>
        simp only [Loaded.isInvalid, Bool.true_eq_false, false_and, false_iff]
        rintro ⟨a, _, ⟨h⟩⟩
        rw [(hc.iff _ _).2 h] at hcj; cases hcj
      | some a =>
        constructor
        · rintro ⟨_, rfl⟩; exact ⟨a, rfl, ⟨(hc.iff _ _).1 hcj⟩⟩
        · rintro ⟨b, rfl, ⟨h⟩⟩
          rw [(hc.iff _ _).2 h] at hcj; cases hcj; exact ⟨rfl, rfl⟩

theorem loadField_givenOrDefault (dflt x : Option α) :
    (loadField {} conv key d).isInvalid = false ∧ (loadField {} conv key d).getD dflt = x ↔
      GivenOrDefault P dflt (dictGet key d) x := by
  cases hg : dictGet key d with
  | none =>
    rw [loadField_none _ _ _ _ hg]
    constructor
    · rintro ⟨_, rfl⟩; exact .missing
    · rintro ⟨⟩; exact ⟨rfl, rfl⟩
  | some j =>
    by_cases hj : j = .null
    · subst hj
      rw [loadField_null _ _ _ _ hg]
      simp only [Bool.or_self, Bool.false_eq_true, if_false, Loaded.isInvalid, Bool.true_eq_false, false_and, false_iff]
      rintro (_ | h)
      exact hc.notNull h
    · rw [loadField_some _ _ _ _ _ hg hj]
      cases hcj : conv j with
      | none =>
        simp only [Loaded.isInvalid, Bool.true_eq_false, false_and, false_iff]
        rintro (_ | h)
        rw [(hc.iff _ _).2 h] at hcj; cases hcj
      | some a =>
        constructor
        · rintro ⟨_, rfl⟩; exact .value ((hc.iff _ _).1 hcj)
        · rintro (_ | h)
          rw [(hc.iff _ _).2 h] at hcj; cases hcj; exact ⟨rfl, rfl⟩

theorem loadField_givenOrNull (o : FieldOpts) (hn : o.allowNone = true) (x : Option α) :
    (loadField o conv key d).isInvalid = false ∧ (loadField o conv key d).isMissing = false ∧ (o.required = true ∨ o.defaultNone = false) ∧
      (loadField o conv key d).getD none = x ↔ (o.required = true ∨ o.defaultNone = false) ∧ GivenOrNull P (dictGet key d) x := by
  cases hg : dictGet key d with
  | none =>
    rw [loadField_none _ _ _ _ hg]
    have h0 : ¬ GivenOrNull P none x := fun h => by cases h
    simp only [h0, and_false, iff_false]
    rintro ⟨h1, h2, h3, h4⟩
    rcases h3 with h3 | h3
    · simp [h3, Loaded.isInvalid] at h1
    · cases hr : o.required <;> simp [h3, hr, Loaded.isMissing, Loaded.isInvalid] at h1 h2
  | some j =>
    by_cases hj : j = .null
    · subst hj
      rw [loadField_null _ _ _ _ hg]
      simp only [hn, Bool.true_or, if_true]
      constructor
      · rintro ⟨_, _, h, rfl⟩; exact ⟨h, .null⟩
      · rintro ⟨h, (_ | h')⟩
        · exact ⟨rfl, rfl, h, rfl⟩
        · exact absurd h' hc.notNull
    · rw [loadField_some _ _ _ _ _ hg hj]
      cases hcj : conv j with
      | none =>
        simp only [Loaded.isInvalid, Bool.true_eq_false, false_and, false_iff]
        rintro ⟨_, (_ | h)⟩
        · exact hj rfl
        · rw [(hc.iff _ _).2 h] at hcj; cases hcj
      | some a =>
        constructor
        · rintro ⟨_, _, h, rfl⟩; exact ⟨h, .value ((hc.iff _ _).1 hcj)⟩
        · rintro ⟨h', (_ | h)⟩
          · exact absurd rfl hj
          · rw [(hc.iff _ _).2 h] at hcj; cases hcj; exact ⟨rfl, rfl, h', rfl⟩

end

/-! ## lists and nested objects -/

theorem loadItems_iff {α : Type} (load : Json → PyRes α) (js : List Json) (l : List α) :
    loadItems load js = .ok (some l) ↔ List.Forall₂ (fun j a => load j = .ok a) js l := by
  induction js generalizing l with
  | nil =>
    rw [loadItems]
    constructor
    · intro h; cases h; exact .nil
    · intro h; cases h; rfl
  | cons j js ih =>
    rw [loadItems]
    constructor
    · intro h
      obtain ⟨a, r, h1, h2, rfl⟩ := collect_ok h
      exact .cons h1 ((ih r).1 h2)
    · intro h
      cases h with
      | cons h1 h2 => rw [h1, (ih _).2 h2]; rfl

theorem loadListField_some {α : Type} (o : FieldOpts) (load : Json → PyRes α) (key : PyStr) (d : List (PyStr × Json)) (l : List α) :
    loadListField o load key d = .ok (.value (some l)) ↔ Given (IsList fun j a => load j = .ok a) (dictGet key d) l := by
  unfold loadListField
  split
  · next hg =>
    rw [hg]
    constructor
    · intro h
      simp only [Except.ok.injEq] at h
      split at h
      · cases h
      · split at h <;> cases h
    · intro h; cases h
  · next hg =>
    rw [hg]
    constructor
    · intro h
      simp only [Except.ok.injEq] at h
      split at h <;> cases h
    · rintro ⟨⟨⟩⟩
  · next js hg =>
    rw [hg]
    constructor
    · intro h
      obtain ⟨l', h1, h2⟩ := loadedItems_ok h
      cases h1
      exact ⟨⟨_, _, (loadItems_iff _ _ _).1 h2⟩⟩
    · rintro ⟨⟨_, _, h⟩⟩
      rw [(loadItems_iff _ _ _).2 h]
      rfl
  · next j h1 h2 hg =>
    rw [hg]
    constructor
    · intro h; cases h
    · rintro ⟨⟨js, _, h⟩⟩
      exact absurd rfl (h2 js)

theorem loadListField_none {α : Type} (load : Json → PyRes α) (key : PyStr) (d : List (PyStr × Json)) :
    loadListField { defaultNone := true } load key d = .ok (.value none) ↔ dictGet key d = none ∨ dictGet key d = some .null := by
  unfold loadListField
  split
  · next hg => simp [hg]
  · next hg => simp [hg]
  · next js hg =>
    rw [hg]
    constructor
    · intro h
      obtain ⟨l', h1, h2⟩ := loadedItems_ok h
      cases h1
    · rintro (h | h) <;> cases h
  · next j h1 h2 hg =>
    rw [hg]
    constructor
    · intro h; cases h
    · rintro (h | h)
      · cases h
      · cases h; exact absurd rfl h1

theorem loadListField_not_missing {α : Type} (load : Json → PyRes α) (key : PyStr) (d : List (PyStr × Json)) (o : FieldOpts)
    (ho : o.required = true ∨ o.defaultNone = true) : loadListField o load key d ≠ .ok .missing := by
  unfold loadListField
  split
  · intro h
    simp only [Except.ok.injEq] at h
    split at h
    · cases h
    · split at h
      · cases h
      · next h1 h2 => rcases ho with h | h <;> contradiction
  · intro h
    simp only [Except.ok.injEq] at h
    split at h <;> cases h
  · intro h
    unfold loadedItems at h
    rename_i l _
    cases hl : loadItems load l with
    | error e => simp [hl, Bind.bind, Except.bind] at h
    | ok x => cases x <;> simp [hl, Bind.bind, Except.bind, pure, Except.pure] at h
  · intro h; cases h

theorem loadListField_required {α : Type} (load : Json → PyRes α) (key : PyStr) (d : List (PyStr × Json)) (o : FieldOpts)
    (ho : o.allowNone = false ∧ o.defaultNone = false) : loadListField o load key d ≠ .ok (.value none) := by
  unfold loadListField
  rw [ho.1, ho.2]
  split
  · intro h
    simp only [Except.ok.injEq] at h
    split at h <;> simp at h
  · intro h; simp at h
  · intro h
    obtain ⟨_, h1, _⟩ := loadedItems_ok h
    cases h1
  · intro h; cases h

theorem loadNestedField_value {α : Type} (load : Json → PyRes α) (hn : ∀ a, load .null ≠ .ok a) (key : PyStr) (d : List (PyStr × Json))
    (a : α) : loadNestedField load key d = .ok (.value a) ↔ Given (fun j a => load j = .ok a) (dictGet key d) a := by
  unfold loadNestedField
  split
  · next hg =>
    rw [hg]
    constructor
    · intro h; cases h
    · intro h; cases h
  · next hg =>
    rw [hg]
    constructor
    · intro h; cases h
    · rintro ⟨h⟩; exact absurd h (hn a)
  · next j h1 hg =>
    rw [hg]
    constructor
    · intro h
      split at h
      · next hl => cases h; exact ⟨hl⟩
      · cases h
      · cases h
    · rintro ⟨h⟩
      rw [h]

/-! ## flat AHBs -/

theorem AhbLine.load_iff (j : Json) (l : AhbLine) : AhbLine.load j = .ok l ↔ DescribesLine j l := by
  have str : ∀ (d : List (PyStr × Json)) (key : PyStr) (x : Option PyStr),
      (strField { defaultNone := true } key d).isInvalid = false ∧ (strField { defaultNone := true } key d).getD none = x ↔
        Optional IsText none (dictGet key d) x := fun d key x =>
    loadField_optional converts_str key d { defaultNone := true } rfl (.inr rfl) none (fun _ => rfl) x
  have gu := fun (d : List (PyStr × Json)) (x : Option Nat) =>
    loadField_optional converts_uuid py!"guid" d { defaultNone := true } rfl (.inr rfl) none (fun _ => rfl) x
  have idx := fun (d : List (PyStr × Json)) (x : Option Int) =>
    loadField_optional converts_int py!"index" d { defaultNone := true } rfl (.inr rfl) none (fun _ => rfl) x
  constructor
  · intro h
    have hcon := AhbLine.load_constructed j l h
    unfold AhbLine.load at h
    split at h
    · rename_i d
      dsimp only at h
      split at h
      · cases h
      · next hi =>
        simp only [Bool.or_eq_true, not_or, Bool.not_eq_true] at hi
        obtain ⟨⟨⟨⟨⟨⟨⟨⟨⟨⟨⟨i1, i2⟩, i3⟩, i4⟩, i5⟩, i6⟩, i7⟩, i8⟩, i9⟩, i10⟩, i11⟩, i12⟩ := hi
        have hl := AhbLine.new_ok h
        refine ⟨d, l, (hasUnknown_iff _ _).1 i12, ?_, ?_, ?_, ?_, ?_, ?_, ?_, ?_, ?_, ?_, ?_, hcon⟩ <;> rw [hl]
        · exact (gu d _).1 ⟨i1, rfl⟩
        · exact (str d _ _).1 ⟨i2, rfl⟩
        · exact (str d _ _).1 ⟨i3, rfl⟩
        · exact (str d _ _).1 ⟨i4, rfl⟩
        · exact (str d _ _).1 ⟨i5, rfl⟩
        · exact (str d _ _).1 ⟨i6, rfl⟩
        · exact (str d _ _).1 ⟨i7, rfl⟩
        · exact (str d _ _).1 ⟨i8, rfl⟩
        · exact (str d _ _).1 ⟨i9, rfl⟩
        · exact (str d _ _).1 ⟨i10, rfl⟩
        · exact (idx d _).1 ⟨i11, rfl⟩
    · cases h
  · rintro ⟨d, l, keys, f1, f2, f3, f4, f5, f6, f7, f8, f9, f10, f11, valid⟩
    obtain ⟨a1, b1⟩ := (gu d _).2 f1
    obtain ⟨a2, b2⟩ := (str d _ _).2 f2
    obtain ⟨a3, b3⟩ := (str d _ _).2 f3
    obtain ⟨a4, b4⟩ := (str d _ _).2 f4
    obtain ⟨a5, b5⟩ := (str d _ _).2 f5
    obtain ⟨a6, b6⟩ := (str d _ _).2 f6
    obtain ⟨a7, b7⟩ := (str d _ _).2 f7
    obtain ⟨a8, b8⟩ := (str d _ _).2 f8
    obtain ⟨a9, b9⟩ := (str d _ _).2 f9
    obtain ⟨a10, b10⟩ := (str d _ _).2 f10
    obtain ⟨a11, b11⟩ := (idx d _).2 f11
    have a12 : hasUnknown ahbLineKeys d = false := (hasUnknown_iff _ _).2 keys
    unfold AhbLine.load
    dsimp only
    rw [a1, a2, a3, a4, a5, a6, a7, a8, a9, a10, a11, a12, b1, b2, b3, b4, b5, b6, b7, b8, b9, b10, b11]
    exact valid.1

theorem AhbMetaInformation.load_iff (j : Json) (m : AhbMetaInformation) : AhbMetaInformation.load j = .ok m ↔ DescribesMeta j m := by
  have req := fun (d : List (PyStr × Json)) (key : PyStr) (x : Option PyStr) => loadField_given converts_str key d x
  have opt : ∀ (d : List (PyStr × Json)) (key : PyStr) (dflt x : Option PyStr),
      (strField { allowNone := true } key d).isInvalid = false ∧ (strField { allowNone := true } key d).getD dflt = x ↔
        Optional IsText dflt (dictGet key d) x := fun d key dflt x =>
    loadField_optional converts_str key d { allowNone := true } rfl (.inl rfl) dflt (fun h => by cases h) x
  constructor
  · intro h
    have hcon := AhbMetaInformation.load_constructed j m h
    unfold AhbMetaInformation.load at h
    split at h
    · rename_i d
      dsimp only at h
      split at h
      · cases h
      · next hi =>
        simp only [Bool.or_eq_true, not_or, Bool.not_eq_true] at hi
        obtain ⟨⟨⟨⟨i1, i2⟩, i3⟩, i4⟩, i5⟩ := hi
        have hm := AhbMetaInformation.new_ok h
        obtain ⟨p, hp, hp'⟩ := (req d _ _).1 ⟨i1, rfl⟩
        refine ⟨d, m, (hasUnknown_iff _ _).1 i5, ?_, ?_, ?_, ?_, hcon⟩ <;> rw [hm]
        · have : (strField { required := true } py!"pruefidentifikator" d).getD none = some p := hp
          dsimp only
          rw [this]
          exact hp'
        · exact (opt d _ _ _).1 ⟨i2, rfl⟩
        · exact (opt d _ _ _).1 ⟨i3, rfl⟩
        · exact (opt d _ _ _).1 ⟨i4, rfl⟩
    · cases h
  · rintro ⟨d, m, keys, f1, f2, f3, f4, valid⟩
    obtain ⟨a1, b1⟩ := (req d _ _).2 ⟨_, rfl, f1⟩
    obtain ⟨a2, b2⟩ := (opt d _ _ _).2 f2
    obtain ⟨a3, b3⟩ := (opt d _ _ _).2 f3
    obtain ⟨a4, b4⟩ := (opt d _ _ _).2 f4
    have a5 : hasUnknown ahbMetaKeys d = false := (hasUnknown_iff _ _).2 keys
    have a1' : (strField { required := true } py!"pruefidentifikator" d).isInvalid = false := a1
    have b1' : (strField { required := true } py!"pruefidentifikator" d).getD none = some m.pruefidentifikator := b1
    have b2' : (strField { allowNone := true } py!"maus_version" d).getD (some Verif.mausVersion) = m.mausVersion := b2
    unfold AhbMetaInformation.load
    dsimp only
    rw [a1', a2, a3, a4, a5, b1', b2', b3, b4]
    exact valid

theorem loadHandbook_iff {α β : Type} (load : Json → PyRes α) (make : AhbMetaInformation → List α → PyRes β) (j : Json) (b : β) :
    loadHandbook load make j = .ok b ↔ ∃ d m l, j = .obj d ∧ OnlyKeys [py!"meta", py!"lines"] d ∧
      Given DescribesMeta (dictGet py!"meta" d) m ∧ Given (IsList fun j a => load j = .ok a) (dictGet py!"lines" d) l ∧
      make m l = .ok b := by
  have hP : (fun j a => AhbMetaInformation.load j = .ok a) = DescribesMeta := by
    funext j a; exact propext (AhbMetaInformation.load_iff j a)
  have hm := fun d m => loadNestedField_value AhbMetaInformation.load (fun a h => by cases h) py!"meta" d m
  rw [hP] at hm
  constructor
  · intro h
    unfold loadHandbook at h
    split at h
    · rename_i d
      cases h1 : loadNestedField AhbMetaInformation.load py!"meta" d with
      | error e => simp [h1, Bind.bind, Except.bind] at h
      | ok info =>
        cases h2 : loadListField {} load py!"lines" d with
        | error e => simp [h1, h2, Bind.bind, Except.bind] at h
        | ok lines =>
          simp only [h1, h2, Bind.bind, Except.bind] at h
          split at h
          · simp at h
          · next hi =>
            simp only [Bool.or_eq_true, not_or, Bool.not_eq_true] at hi
            split at h
            · rename_i m l
              exact ⟨d, m, l, rfl, (hasUnknown_iff _ _).1 hi.2, (hm d m).1 h1, (loadListField_some _ _ _ _ _).1 h2, h⟩
            · simp at h
    · simp at h
  · rintro ⟨d, m, l, rfl, hk, h1, h2, h3⟩
    unfold loadHandbook
    dsimp only
    rw [(hm d m).2 h1, (loadListField_some {} _ _ _ _).2 h2, (hasUnknown_iff _ _).2 hk]
    exact h3

theorem FlatAhb.new_ok {m : AhbMetaInformation} {l : List AhbLine} {f : FlatAhb} (h : FlatAhb.new m l = .ok f) : f = ⟨m, l⟩ := by
  unfold FlatAhb.new at h
  cases hc : FlatAhb.checkLines l with
  | error e => simp [hc, Bind.bind, Except.bind] at h
  | ok u => simpa [hc, Bind.bind, Except.bind, pure, Except.pure] using h.symm

theorem FlatAhb.load_iff (j : Json) (f : FlatAhb) : FlatAhb.load j = .ok f ↔ DescribesFlat j f := by
  have hP : (fun j a => AhbLine.load j = .ok a) = DescribesLine := by
    funext j a; exact propext (AhbLine.load_iff j a)
  constructor
  · intro h
    have hcon := flat_load_constructed j f h
    obtain ⟨d, m, l, rfl, hk, h1, h2, h3⟩ := (loadHandbook_iff _ _ _ _).1 h
    have hf := FlatAhb.new_ok h3
    rw [hP] at h2
    refine ⟨d, f, hk, ?_, ?_, hcon⟩ <;> rw [hf]
    · exact h1
    · exact h2
  · rintro ⟨d, f, hk, h1, h2, valid⟩
    rw [← hP] at h2
    exact (loadHandbook_iff _ _ _ _).2 ⟨d, f.ahbMeta, f.lines, rfl, hk, h1, h2, valid.1⟩

/-! ## data elements -/

theorem strField_given (d : List (PyStr × Json)) (key : PyStr) (x : Option PyStr) :
    (strField { required := true } key d).isInvalid = false ∧ (strField { required := true } key d).getD none = x ↔
      ∃ a, x = some a ∧ Given IsText (dictGet key d) a := loadField_given converts_str key d x

theorem strField_optional (d : List (PyStr × Json)) (key : PyStr) (x : Option PyStr) :
    (strField { defaultNone := true } key d).isInvalid = false ∧ (strField { defaultNone := true } key d).getD none = x ↔
      Optional IsText none (dictGet key d) x :=
  loadField_optional converts_str key d { defaultNone := true } rfl (.inr rfl) none (fun _ => rfl) x

theorem strField_allowNone (d : List (PyStr × Json)) (key : PyStr) (x : Option PyStr) :
    (strField { allowNone := true } key d).isInvalid = false ∧ (strField { allowNone := true } key d).getD none = x ↔
      Optional IsText none (dictGet key d) x :=
  loadField_optional converts_str key d { allowNone := true } rfl (.inl rfl) none (fun h => by cases h) x

/-- `allow_none=True`, and the keyword argument is there -/
theorem strField_present (d : List (PyStr × Json)) (key : PyStr) (x : Option PyStr) :
    (strField { allowNone := true } key d).isInvalid = false ∧ (strField { allowNone := true } key d).isMissing = false ∧
      (strField { allowNone := true } key d).getD none = x ↔ GivenOrNull IsText (dictGet key d) x := by
  have := loadField_givenOrNull converts_str key d { allowNone := true } rfl x
  simp only [or_true, true_and] at this
  exact this

/-- `allow_none=True, required=True` -/
theorem strField_requiredOrNull (d : List (PyStr × Json)) (key : PyStr) (x : Option PyStr) :
    (strField { allowNone := true, required := true } key d).isInvalid = false ∧
      (strField { allowNone := true, required := true } key d).getD none = x ↔ GivenOrNull IsText (dictGet key d) x := by
  have := loadField_givenOrNull converts_str key d { allowNone := true, required := true } rfl x
  simp only [true_or, true_and] at this
  rw [← this]
  unfold strField
  constructor
  · rintro ⟨h1, h2⟩
    refine ⟨h1, ?_, h2⟩
    unfold loadField at h1 ⊢
    split at h1
    · cases h1
    · rfl
    · split at h1
      · cases h1
      · rfl
  · rintro ⟨h1, h2, h3⟩; exact ⟨h1, h3⟩

/-- the `null` of a nullable field is refused by the constructor if a value is needed -/
theorem givenOrNull_some {α : Type} {P : Json → α → Prop} {j : Option Json} {a : α} : GivenOrNull P j (some a) ↔ Given P j a := by
  constructor
  · rintro (_ | h); exact ⟨h⟩
  · rintro ⟨h⟩; exact .value h

theorem ValuePoolEntry.new_ok {q m x : Option PyStr} {e : ValuePoolEntry} (h : ValuePoolEntry.new q m x = .ok e) :
    q = some e.qualifier ∧ m = some e.meaning ∧ x = some e.ahbExpression := by
  unfold ValuePoolEntry.new at h
  split at h
  · cases h
  · next hq =>
    split at h
    · cases h
    · split at h
      · cases h
      · next hx =>
        cases h
        cases q with
        | none => exact absurd rfl hq
        | some q =>
          cases x with
          | none => exact absurd rfl hx
          | some x => exact ⟨rfl, rfl, rfl⟩

theorem ValuePoolEntry.load_iff (j : Json) (e : ValuePoolEntry) : ValuePoolEntry.load j = .ok e ↔ DescribesEntry j e := by
  constructor
  · intro h
    have hcon := ValuePoolEntry.load_constructed j e h
    unfold ValuePoolEntry.load at h
    split at h
    · rename_i d
      dsimp only at h
      split at h
      · cases h
      · next hi =>
        simp only [Bool.or_eq_true, not_or, Bool.not_eq_true] at hi
        obtain ⟨⟨⟨i1, i2⟩, i3⟩, i4⟩ := hi
        obtain ⟨h1, h2, h3⟩ := ValuePoolEntry.new_ok h
        obtain ⟨_, ⟨⟩, g1⟩ := (strField_given d _ _).1 ⟨i1, h1⟩
        obtain ⟨_, ⟨⟩, g2⟩ := (strField_given d _ _).1 ⟨i2, h2⟩
        obtain ⟨_, ⟨⟩, g3⟩ := (strField_given d _ _).1 ⟨i3, h3⟩
        exact ⟨d, e, (hasUnknown_iff _ _).1 i4, g1, g2, g3, hcon⟩
    · cases h
  · rintro ⟨d, e, keys, f1, f2, f3, valid⟩
    obtain ⟨a1, b1⟩ := (strField_given d _ _).2 ⟨_, rfl, f1⟩
    obtain ⟨a2, b2⟩ := (strField_given d _ _).2 ⟨_, rfl, f2⟩
    obtain ⟨a3, b3⟩ := (strField_given d _ _).2 ⟨_, rfl, f3⟩
    unfold ValuePoolEntry.load
    dsimp only
    rw [a1, a2, a3, (hasUnknown_iff _ _).2 keys, b1, b2, b3]
    exact valid

/-- the field `value_type`, when it holds a data type or `None` -/
theorem loadType_type (d : List (PyStr × Json)) (dflt : DataElementDataType) (t : Option DataElementDataType) :
    (loadField {} convDataType py!"value_type" d).isInvalid = false ∧
      (loadField {} convDataType py!"value_type" d).getD (some (.type (some dflt))) = some (.type t) ↔
      ValueTypeGiven dflt (dictGet py!"value_type" d) t := by
  rw [loadField_givenOrDefault converts_type]
  generalize dictGet py!"value_type" d = o
  generalize hx : some (TypeArg.type t) = x
  generalize hd : some (TypeArg.type (some dflt)) = y
  constructor
  · rintro (_ | ⟨h⟩)
    · rw [← hd] at hx; cases hx; exact .missing
    · cases hx
      cases h with
      | name h => exact .name h
      | signature => exact .signature
  · rintro (_ | h | _)
    · rw [← hx, hd]; exact .missing
    · subst hx; exact .value (.name h)
    · subst hx; exact .value .signature

theorem DataElement.newFreeText_ok {disc id inp x : Option PyStr} {t : Option DataElementDataType} {de : DataElement}
    (h : DataElement.newFreeText disc id inp x t = .ok de) :
    disc = de.discriminator ∧ id = some de.dataElementId ∧ inp = de.enteredInput ∧ t = de.valueType ∧
      ∃ e, x = some e ∧ de.kind = .freeText e := by
  unfold DataElement.newFreeText at h
  cases hb : DataElement.checkBase disc id with
  | error e => simp [hb, Bind.bind, Except.bind] at h
  | ok i =>
    simp only [hb, Bind.bind, Except.bind, pure, Except.pure] at h
    cases x with
    | none => simp at h
    | some x =>
      simp only at h
      split at h
      · cases h
      · cases h
        exact ⟨rfl, checkBase_id hb, rfl, rfl, x, rfl, rfl⟩

theorem DataElement.newValuePool_ok {disc id inp : Option PyStr} {p : List ValuePoolEntry} {t : Option DataElementDataType}
    {de : DataElement} (h : DataElement.newValuePool disc id inp p t = .ok de) :
    disc = de.discriminator ∧ id = some de.dataElementId ∧ inp = de.enteredInput ∧ t = de.valueType ∧ de.kind = .valuePool p := by
  unfold DataElement.newValuePool at h
  cases hb : DataElement.checkBase disc id with
  | error e => simp [hb, Bind.bind, Except.bind] at h
  | ok i =>
    simp only [hb, Bind.bind, Except.bind, pure, Except.pure] at h
    cases h
    exact ⟨rfl, checkBase_id hb, rfl, rfl, rfl⟩

theorem dictGet_of_given {α : Type} {P : Json → α → Prop} {o : Option Json} {a : α} (h : Given P o a) : o.isSome := by
  cases h; rfl

theorem dictGet_mem (k : PyStr) (d : List (PyStr × Json)) (j : Json) (h : dictGet k d = some j) : (k, j) ∈ d := by
  induction d with
  | nil => cases h
  | cons p d ih =>
    obtain ⟨k', v⟩ := p
    rw [dictGet] at h
    split at h
    · next hk => cases h; rw [hk]; simp
    · exact List.mem_cons_of_mem _ (ih h)

theorem DataElement.load_iff (j : Json) (de : DataElement) : DataElement.load j = .ok de ↔ DescribesDataElement j de := by
  have hP : (fun j a => ValuePoolEntry.load j = .ok a) = DescribesEntry := by
    funext j a; exact propext (ValuePoolEntry.load_iff j a)
  constructor
  · intro h
    have hcon := DataElement.load_constructed j de h
    unfold DataElement.load at h
    split at h
    · rename_i d
      split at h
      · unfold DataElement.loadValuePool at h
        dsimp only at h
        cases hp : loadListField { required := true } ValuePoolEntry.load py!"value_pool" d with
        | error e => simp [hp, Bind.bind, Except.bind] at h
        | ok pool =>
          simp only [hp, Bind.bind, Except.bind] at h
          split at h
          · cases h
          · next hi =>
            simp only [Bool.or_eq_true, not_or, Bool.not_eq_true] at hi
            obtain ⟨⟨⟨⟨⟨i1, i2⟩, i3⟩, i4⟩, i5⟩, i6⟩ := hi
            split at h
            · cases h
            · next hmis =>
              obtain ⟨t, ht, h⟩ := DataElement.withType_ok h
              obtain ⟨h1, h2, h3, rfl, h5⟩ := DataElement.newValuePool_ok h
              obtain ⟨_, ⟨⟩, g2⟩ := (strField_given d _ _).1 ⟨i2, h2⟩
              cases pool with
              | missing => exact absurd hp (loadListField_not_missing _ _ _ _ (.inl rfl))
              | invalid => cases i5
              | value l =>
                cases l with
                | none => exact absurd hp (loadListField_required _ _ _ _ ⟨rfl, rfl⟩)
                | some l =>
                  refine .valuePool d de l h5 ((hasUnknown_iff _ _).1 i6) ((strField_present d _ _).1 ⟨i1, by simpa using hmis, h1⟩) g2
                    ((strField_optional d _ _).1 ⟨i3, h3⟩) ((loadType_type _ _ _).1 ⟨i4, ht⟩) ?_ hcon
                  rw [← hP]
                  exact (loadListField_some _ _ _ _ _).1 hp
      · unfold DataElement.loadFreeText at h
        dsimp only at h
        split at h
        · cases h
        · next hi =>
          simp only [Bool.or_eq_true, not_or, Bool.not_eq_true] at hi
          obtain ⟨⟨⟨⟨⟨i1, i2⟩, i3⟩, i4⟩, i5⟩, i6⟩ := hi
          split at h
          · cases h
          · next hmis =>
            obtain ⟨t, ht, h⟩ := DataElement.withType_ok h
            obtain ⟨h1, h2, h3, rfl, x, h5, h6⟩ := DataElement.newFreeText_ok h
            obtain ⟨_, ⟨⟩, g2⟩ := (strField_given d _ _).1 ⟨i2, h2⟩
            exact .freeText d de x h6 ((hasUnknown_iff _ _).1 i6) ((strField_present d _ _).1 ⟨i1, by simpa using hmis, h1⟩) g2
              ((strField_optional d _ _).1 ⟨i3, h3⟩) ((loadType_type _ _ _).1 ⟨i4, ht⟩)
              (givenOrNull_some.1 ((strField_requiredOrNull d _ _).1 ⟨i5, h5⟩)) hcon
    · cases h
    · cases h
    · cases h
    · cases h
  · rintro (⟨d, de, x, kind, keys, f1, f2, f3, f4, f5, valid⟩ | ⟨d, de, p, kind, keys, f1, f2, f3, f4, f5, valid⟩)
    · have hk : (dictGet py!"value_pool" d).isSome = false := by
        cases hg : dictGet py!"value_pool" d with
        | none => rfl
        | some j =>
          have := keys _ _ (dictGet_mem _ _ _ hg)
          exact absurd this (by decide +kernel)
      obtain ⟨a1, m1, b1⟩ := (strField_present d _ _).2 f1
      obtain ⟨a2, b2⟩ := (strField_given d _ _).2 ⟨_, rfl, f2⟩
      obtain ⟨a3, b3⟩ := (strField_optional d _ _).2 f3
      obtain ⟨a4, b4⟩ := (loadType_type d _ _).2 f4
      obtain ⟨a5, b5⟩ := (strField_requiredOrNull d _ _).2 (givenOrNull_some.2 f5)
      have a6 : hasUnknown (dataElementKeys ++ [py!"ahb_expression"]) d = false := (hasUnknown_iff _ _).2 keys
      unfold DataElement.load
      dsimp only
      rw [hk]
      unfold DataElement.loadFreeText
      dsimp only
      rw [a1, a2, a3, a4, a5, a6, m1, b1, b2, b3, b4, b5]
      unfold DataElement.Constructed at valid
      rw [kind] at valid
      exact valid
    · obtain ⟨a1, m1, b1⟩ := (strField_present d _ _).2 f1
      obtain ⟨a2, b2⟩ := (strField_given d _ _).2 ⟨_, rfl, f2⟩
      obtain ⟨a3, b3⟩ := (strField_optional d _ _).2 f3
      obtain ⟨a4, b4⟩ := (loadType_type d _ _).2 f4
      have hs := dictGet_of_given f5
      rw [← hP] at f5
      have b5 := (loadListField_some { required := true } _ _ d _).2 f5
      have a6 : hasUnknown (dataElementKeys ++ [py!"value_pool"]) d = false := (hasUnknown_iff _ _).2 keys
      unfold DataElement.load
      dsimp only
      rw [hs]
      unfold DataElement.loadValuePool
      dsimp only
      rw [b5]
      simp only [Bind.bind, Except.bind]
      rw [a1, a2, a3, a4, a6, m1, b1, b2, b3, b4]
      unfold DataElement.Constructed at valid
      rw [kind] at valid
      exact valid.1

/-! ## segments -/

theorem Segment.new_ok {disc x sec sid : Option PyStr} {i : Option Int} {l : List DataElement} {s : Segment}
    (h : Segment.new disc x i l sec sid = .ok s) :
    disc = s.discriminator ∧ x = some s.ahbExpression ∧ i = s.ahbLineIndex ∧ l = s.dataElements ∧ sec = s.sectionName ∧
      sid = s.segmentId := by
  unfold Segment.new at h
  cases hc : checkSegmentLevelExpression x with
  | error e => simp [hc, Bind.bind, Except.bind] at h
  | ok e =>
    simp only [hc, Bind.bind, Except.bind, pure, Except.pure] at h
    split at h
    · cases h
    · cases h
      exact ⟨rfl, checkSegmentLevelExpression_id hc, rfl, rfl, rfl, rfl⟩

theorem Segment.load_iff (j : Json) (s : Segment) : Segment.load j = .ok s ↔ DescribesSegment j s := by
  have hP : (fun j a => DataElement.load j = .ok a) = DescribesDataElement := by
    funext j a; exact propext (DataElement.load_iff j a)
  constructor
  · intro h
    have hcon := (Segment.load_constructed j s h).1
    unfold Segment.load at h
    split at h
    · rename_i d
      dsimp only at h
      cases hp : loadListField {} DataElement.load py!"data_elements" d with
      | error e => simp [hp, Bind.bind, Except.bind] at h
      | ok des =>
        simp only [hp, Bind.bind, Except.bind] at h
        split at h
        · cases h
        · next hi =>
          simp only [Bool.or_eq_true, not_or, Bool.not_eq_true] at hi
          obtain ⟨⟨⟨⟨⟨i1, i2⟩, i3⟩, i4⟩, i5⟩, i6⟩ := hi
          split at h
          · rename_i l
            obtain ⟨h1, h2, h3, h4, h5, h6⟩ := Segment.new_ok h
            obtain ⟨x, hx, g1⟩ := (strField_given d _ _).1 ⟨i1, h1⟩
            refine ⟨d, s, (hasUnknown_iff _ _).1 i6, ⟨x, hx, g1⟩, givenOrNull_some.1 ((strField_requiredOrNull d _ _).1 ⟨i2, h2⟩), ?_,
              (loadField_givenOrDefault converts_str _ _ _ _).1 ⟨i4, h5⟩, (strField_allowNone d _ _).1 ⟨i5, h6⟩, h3.symm, hcon⟩
            rw [← hP, ← h4]
            exact (loadListField_some _ _ _ _ _).1 hp
          · cases h
    · cases h
  · rintro ⟨d, s, keys, ⟨x, hx, f1⟩, f2, f3, f4, f5, f6, valid⟩
    obtain ⟨a1, b1⟩ := (strField_given d _ _).2 ⟨_, rfl, f1⟩
    obtain ⟨a2, b2⟩ := (strField_requiredOrNull d _ _).2 (givenOrNull_some.2 f2)
    rw [← hP] at f3
    have b3 := (loadListField_some {} _ _ d _).2 f3
    obtain ⟨a4, b4⟩ := (loadField_givenOrDefault converts_str _ d _ _).2 f4
    have a4' : (strField {} py!"section_name" d).isInvalid = false := a4
    have b4' : (strField {} py!"section_name" d).getD none = s.sectionName := b4
    obtain ⟨a5, b5⟩ := (strField_allowNone d _ _).2 f5
    unfold Segment.load
    dsimp only
    rw [b3]
    simp only [Bind.bind, Except.bind]
    rw [a1, a2, a4', a5, (hasUnknown_iff _ _).2 keys, b1, b2, b4', b5]
    have := valid
    unfold Segment.Constructed at this
    rw [hx, f6] at this
    exact this

/-! ## segment groups -/

namespace SegmentGroup

theorem loadGroupsField_eq (d : List (PyStr × Json)) :
    loadGroupsField d = loadListField { defaultNone := true } load py!"segment_groups" d := by
  induction d with
  | nil => rw [loadGroupsField]; rfl
  | cons p d ih =>
    obtain ⟨k, v⟩ := p
    by_cases hk : k = py!"segment_groups"
    · subst hk
      cases v with
      | arr l => rw [loadGroupsField_arr, loadGroups_eq]; rfl
      | null => rw [loadGroupsField_null]; rfl
      | bool b => rw [loadGroupsField, if_pos rfl] <;> first | rfl | nofun
      | num b => rw [loadGroupsField, if_pos rfl] <;> first | rfl | nofun
      | float b => rw [loadGroupsField, if_pos rfl] <;> first | rfl | nofun
      | str b => rw [loadGroupsField, if_pos rfl] <;> first | rfl | nofun
      | obj b => rw [loadGroupsField, if_pos rfl] <;> first | rfl | nofun
    · rw [loadGroupsField_ne _ _ _ hk, ih]
      unfold loadListField
      rw [dictGet, if_neg hk]

theorem new_ok {disc x : Option PyStr} {i : Option Int} {segs : Option (List Segment)} {gs : Option (List SegmentGroup)}
    {g : SegmentGroup} (h : SegmentGroup.new disc x i segs gs = .ok g) :
    disc = g.discriminator ∧ x = some g.ahbExpression ∧ i = g.ahbLineIndex ∧ segs = g.segments ∧ gs = g.segmentGroups := by
  unfold SegmentGroup.new at h
  cases hc : checkSegmentLevelExpression x with
  | error e => simp [hc, Bind.bind, Except.bind] at h
  | ok e =>
    simp only [hc, Bind.bind, Except.bind, pure, Except.pure, Except.ok.injEq] at h
    subst h
    exact ⟨rfl, checkSegmentLevelExpression_id hc, rfl, rfl, rfl⟩

theorem optionalList {α : Type} (load : Json → PyRes α) (key : PyStr) (d : List (PyStr × Json)) (x : Option (List α)) :
    loadListField { defaultNone := true } load key d = .ok (.value x) ↔
      Optional (IsList fun j a => load j = .ok a) none (dictGet key d) x := by
  cases x with
  | none =>
    rw [loadListField_none]
    constructor
    · rintro (h | h) <;> rw [h]
      · exact .missing
      · exact .null
    · generalize dictGet key d = o
      rintro (_ | _)
      · exact .inl rfl
      · exact .inr rfl
  | some l =>
    rw [loadListField_some]
    generalize dictGet key d = o
    constructor
    · rintro ⟨h⟩; exact .value h
    · rintro (_ | _ | h); exact ⟨h⟩

/-- one level of a group document -/
theorem load_iff_step (j : Json) (g : SegmentGroup) : load j = .ok g ↔ ∃ d, j = .obj d ∧
    OnlyKeys [py!"discriminator", py!"ahb_expression", py!"segments", py!"segment_groups"] d ∧
    (∃ x, g.discriminator = some x ∧ Given IsText (dictGet py!"discriminator" d) x) ∧
    Given IsText (dictGet py!"ahb_expression" d) g.ahbExpression ∧
    Optional (IsList DescribesSegment) none (dictGet py!"segments" d) g.segments ∧
    Optional (IsList fun j a => load j = .ok a) none (dictGet py!"segment_groups" d) g.segmentGroups ∧
    g.ahbLineIndex = none ∧ g.Constructed := by
  have hP : (fun j a => Segment.load j = .ok a) = DescribesSegment := by
    funext j a; exact propext (Segment.load_iff j a)
  constructor
  · intro h
    have hcon := (load_valid j g h g ((occurs_iff _ _).2 ⟨g, by simp, .inl rfl⟩)).1
    cases j with
    | obj d =>
      rw [load, loadGroupsField_eq] at h
      cases hp : loadListField { defaultNone := true } Segment.load py!"segments" d with
      | error e => simp [hp, Bind.bind, Except.bind] at h
      | ok segs =>
        cases hq : loadListField { defaultNone := true } load py!"segment_groups" d with
        | error e => simp [hp, hq, Bind.bind, Except.bind] at h
        | ok gs =>
          simp only [hp, hq, Bind.bind, Except.bind] at h
          split at h
          · cases h
          · next hi =>
            simp only [Bool.or_eq_true, not_or, Bool.not_eq_true] at hi
            obtain ⟨⟨⟨⟨i1, i2⟩, i3⟩, i4⟩, i5⟩ := hi
            obtain ⟨h1, h2, h3, h4, h5⟩ := new_ok h
            obtain ⟨x, hx, g1⟩ := (strField_given d _ _).1 ⟨i1, h1⟩
            refine ⟨d, rfl, (hasUnknown_iff _ _).1 i5, ⟨x, hx, g1⟩, givenOrNull_some.1 ((strField_requiredOrNull d _ _).1 ⟨i2, h2⟩), ?_, ?_,
              h3.symm, hcon⟩
            · cases segs with
              | missing => exact absurd hp (loadListField_not_missing _ _ _ _ (.inr rfl))
              | invalid => cases i3
              | value l =>
                rw [← hP, ← h4]
                exact (optionalList _ _ _ _).1 hp
            · cases gs with
              | missing => exact absurd hq (loadListField_not_missing _ _ _ _ (.inr rfl))
              | invalid => cases i4
              | value l =>
                rw [← h5]
                exact (optionalList _ _ _ _).1 hq
    | _ => unfold load at h; cases h
  · rintro ⟨d, rfl, hkeys, ⟨x, hx, f1⟩, f2, f3, f4, f5, valid⟩
    obtain ⟨a1, b1⟩ := (strField_given d _ _).2 ⟨_, rfl, f1⟩
    obtain ⟨a2, b2⟩ := (strField_requiredOrNull d _ _).2 (givenOrNull_some.2 f2)
    rw [← hP] at f3
    have b3 := (optionalList _ _ d _).2 f3
    have b4 := (optionalList _ _ d _).2 f4
    have a5 : hasUnknown SegmentGroup.keys d = false := (hasUnknown_iff _ _).2 hkeys
    rw [load, loadGroupsField_eq, b3, b4]
    simp only [Bind.bind, Except.bind]
    rw [a1, a2, a5, b1, b2]
    have := valid
    unfold SegmentGroup.Constructed at this
    rw [hx, f5] at this
    exact this

theorem sizeOf_dictGet (k : PyStr) (d : List (PyStr × Json)) (j : Json) (h : dictGet k d = some j) : sizeOf j < sizeOf (Json.obj d) := by
  have h1 := List.sizeOf_lt_of_mem (dictGet_mem k d j h)
  simp only [Prod.mk.sizeOf_spec, Json.obj.sizeOf_spec] at h1 ⊢
  omega

theorem sizeOf_item (k : PyStr) (d : List (PyStr × Json)) (js : List Json) (h : dictGet k d = some (.arr js)) (j : Json) (hj : j ∈ js) :
    sizeOf j < sizeOf (Json.obj d) := by
  have h1 := sizeOf_dictGet k d _ h
  have h2 := List.sizeOf_lt_of_mem hj
  simp only [Json.arr.sizeOf_spec] at h1
  omega

theorem forall₂_zip {α β : Type} {R : α → β → Prop} {l : List α} {l' : List β} (h : List.Forall₂ R l l') :
    l.length = l'.length ∧ ∀ p ∈ l.zip l', R p.1 p.2 := by
  induction h with
  | nil => simp
  | cons h _ ih =>
    refine ⟨by simp [ih.1], fun p hp => ?_⟩
    rw [List.zip_cons_cons, List.mem_cons] at hp
    rcases hp with rfl | hp
    · exact h
    · exact ih.2 p hp

theorem forall₂_of_zip {α β : Type} {R : α → β → Prop} : ∀ (l : List α) (l' : List β), l.length = l'.length →
    (∀ p ∈ l.zip l', R p.1 p.2) → List.Forall₂ R l l'
  | [], [], _, _ => .nil
  | a :: l, b :: l', h, hp => .cons (hp (a, b) (by simp))
    (forall₂_of_zip l l' (by simpa using h) fun p h => hp p (by rw [List.zip_cons_cons]; exact List.mem_cons_of_mem _ h))

theorem describes_of_load : ∀ (n : Nat) (j : Json), sizeOf j < n → ∀ g, load j = .ok g → DescribesGroup j g := by
  intro n
  induction n with
  | zero => intro j h; omega
  | succ n ih =>
    intro j hn g h
    obtain ⟨d, rfl, hk, f1, f2, f3, f4, f5, valid⟩ := (load_iff_step j g).1 h
    cases hd : dictGet py!"segment_groups" d with
    | none =>
      rw [hd] at f4
      generalize hgs : g.segmentGroups = gs at f4
      cases f4
      exact .leaf d g hk f1 f2 f3 (.inl hd) hgs f5 valid
    | some v =>
      rw [hd] at f4
      generalize hgs : g.segmentGroups = gs at f4
      cases f4 with
      | null => exact .leaf d g hk f1 f2 f3 (.inr hd) hgs f5 valid
      | @value _ l hl =>
        cases hl with
        | mk js _ hl =>
          obtain ⟨h1, h2⟩ := forall₂_zip hl
          refine .node d g js l hk f1 f2 f3 hd hgs h1 (fun p hp => ?_) f5 valid
          have := sizeOf_item _ d js hd p.1 (List.of_mem_zip hp).1
          exact ih p.1 (by omega) p.2 (h2 p hp)

theorem load_of_describes {j : Json} {g : SegmentGroup} (h : DescribesGroup j g) : load j = .ok g := by
  induction h with
  | leaf d g hk f1 f2 f3 h4 h5 f6 valid =>
    refine (load_iff_step _ _).2 ⟨d, rfl, hk, f1, f2, f3, ?_, f6, valid⟩
    rw [h5]
    rcases h4 with h4 | h4 <;> rw [h4]
    · exact .missing
    · exact .null
  | node d g js gs hk f1 f2 f3 h4 h5 hlen _ f6 valid ih =>
    refine (load_iff_step _ _).2 ⟨d, rfl, hk, f1, f2, f3, ?_, f6, valid⟩
    rw [h5, h4]
    exact .value ⟨_, _, forall₂_of_zip _ _ hlen ih⟩

theorem load_iff (j : Json) (g : SegmentGroup) : load j = .ok g ↔ DescribesGroup j g :=
  ⟨describes_of_load _ j (Nat.lt_succ_self _) g, load_of_describes⟩

end SegmentGroup

theorem DeepAhb.load_iff (j : Json) (a : DeepAhb) : DeepAhb.load j = .ok a ↔ DescribesDeep j a := by
  have hP : (fun j a => SegmentGroup.load j = .ok a) = DescribesGroup := by
    funext j a; exact propext (SegmentGroup.load_iff j a)
  constructor
  · intro h
    obtain ⟨d, m, l, rfl, hk, h1, h2, h3⟩ := (loadHandbook_iff _ _ _ _).1 h
    rw [hP] at h2
    cases h3
    exact ⟨d, _, hk, h1, h2⟩
  · rintro ⟨d, a, hk, h1, h2⟩
    rw [← hP] at h2
    exact (loadHandbook_iff _ _ _ _).2 ⟨d, a.ahbMeta, a.lines, rfl, hk, h1, h2, rfl⟩

/-! ## segment group hierarchies -/

namespace Sgh

theorem loadSubField_eq (d : List (PyStr × Json)) :
    loadSubField d = loadListField { allowNone := true } load py!"sub_hierarchy" d := by
  induction d with
  | nil => rw [loadSubField]; rfl
  | cons p d ih =>
    obtain ⟨k, v⟩ := p
    by_cases hk : k = py!"sub_hierarchy"
    · subst hk
      cases v with
      | arr l => rw [loadSubField_arr, loadSubs_eq]; rfl
      | null => rw [loadSubField_null]; rfl
      | bool b => rw [loadSubField, if_pos rfl] <;> first | rfl | nofun
      | num b => rw [loadSubField, if_pos rfl] <;> first | rfl | nofun
      | float b => rw [loadSubField, if_pos rfl] <;> first | rfl | nofun
      | str b => rw [loadSubField, if_pos rfl] <;> first | rfl | nofun
      | obj b => rw [loadSubField, if_pos rfl] <;> first | rfl | nofun
    · rw [loadSubField_ne _ _ _ hk, ih]
      unfold loadListField
      rw [dictGet, if_neg hk]

theorem nullableList {α : Type} (load : Json → PyRes α) (key : PyStr) (d : List (PyStr × Json)) (x : Option (List α)) :
    loadListField { allowNone := true } load key d = .ok (.value x) ↔
      GivenOrNull (IsList fun j a => load j = .ok a) (dictGet key d) x := by
  cases x with
  | none =>
    unfold loadListField
    split
    · next hg =>
      rw [hg]
      constructor
      · intro h; simp at h
      · rintro ⟨⟩
    · next hg =>
      rw [hg]
      exact ⟨fun _ => .null, fun _ => rfl⟩
    · next js hg =>
      rw [hg]
      constructor
      · intro h
        obtain ⟨l', h1, h2⟩ := loadedItems_ok h
        cases h1
      · rintro ⟨⟩
    · next j h1 h2 hg =>
      rw [hg]
      constructor
      · intro h; cases h
      · intro h
        generalize ho : some j = o at h
        cases h
        cases ho
        exact absurd rfl h1
  | some l =>
    rw [loadListField_some]
    generalize dictGet key d = o
    constructor
    · rintro ⟨h⟩; exact .value h
    · rintro (_ | h); exact ⟨h⟩

/-- one level of a hierarchy document -/
theorem load_iff_step (j : Json) (key : Option PyStr) (opening : PyStr) (sub : Option (List Sgh)) :
    load j = .ok (.mk key opening sub) ↔ ∃ d, j = .obj d ∧
    OnlyKeys [py!"segment_group", py!"opening_segment", py!"sub_hierarchy"] d ∧
    GivenOrNull IsText (dictGet py!"segment_group" d) key ∧ Given IsText (dictGet py!"opening_segment" d) opening ∧
    GivenOrNull (IsList fun j a => load j = .ok a) (dictGet py!"sub_hierarchy" d) sub := by
  constructor
  · intro h
    cases j with
    | obj d =>
      rw [load, loadSubField_eq] at h
      cases hp : loadListField { allowNone := true } load py!"sub_hierarchy" d with
      | error e => simp [hp, Bind.bind, Except.bind] at h
      | ok subs =>
        simp only [hp, Bind.bind, Except.bind] at h
        split at h
        · cases h
        · next hi =>
          simp only [Bool.or_eq_true, not_or, Bool.not_eq_true] at hi
          obtain ⟨⟨⟨i1, i2⟩, i3⟩, i4⟩ := hi
          split at h
          · rename_i s
            simp only [Except.ok.injEq, Sgh.mk.injEq] at h
            obtain ⟨h1, h2, h3⟩ := h
            obtain ⟨x, hx, g2⟩ := (strField_given d _ _).1 ⟨i2, rfl⟩
            have hx' : (strField { required := true } py!"opening_segment" d).getD none = some x := hx
            rw [hx'] at h2
            refine ⟨d, rfl, (hasUnknown_iff _ _).1 i4, (strField_requiredOrNull d _ _).1 ⟨i1, h1⟩, ?_, ?_⟩
            · rw [← h2]; exact g2
            · rw [← h3]; exact (nullableList _ _ _ _).1 hp
          · cases h
    | _ => unfold load at h; cases h
  · rintro ⟨d, rfl, hkeys, f1, f2, f3⟩
    obtain ⟨a1, b1⟩ := (strField_requiredOrNull d _ _).2 f1
    obtain ⟨a2, b2⟩ := (strField_given d _ _).2 ⟨_, rfl, f2⟩
    have b3 := (nullableList _ _ d _).2 f3
    rw [load, loadSubField_eq, b3]
    simp only [Bind.bind, Except.bind]
    rw [a1, a2, (hasUnknown_iff _ _).2 hkeys, b1, b2]
    rfl

theorem describes_of_load : ∀ (n : Nat) (j : Json), sizeOf j < n → ∀ s, load j = .ok s → DescribesHierarchy j s := by
  intro n
  induction n with
  | zero => intro j h; omega
  | succ n ih =>
    intro j hn s h
    obtain ⟨key, opening, sub⟩ := s
    obtain ⟨d, rfl, hk, f1, f2, f3⟩ := (load_iff_step _ _ _ _).1 h
    generalize hd : dictGet py!"sub_hierarchy" d = v at f3
    cases f3 with
    | null => exact .leaf d key opening hk f1 f2 hd
    | @value _ l hl =>
      cases hl with
      | mk js _ hl =>
        obtain ⟨h1, h2⟩ := SegmentGroup.forall₂_zip hl
        refine .node d key opening js l hk f1 f2 hd h1 (fun p hp => ?_)
        have := SegmentGroup.sizeOf_item _ d js hd p.1 (List.of_mem_zip hp).1
        exact ih p.1 (by omega) p.2 (h2 p hp)

theorem load_of_describes {j : Json} {s : Sgh} (h : DescribesHierarchy j s) : load j = .ok s := by
  induction h with
  | leaf d key opening hk f1 f2 h3 =>
    refine (load_iff_step _ _ _ _).2 ⟨d, rfl, hk, f1, f2, ?_⟩
    rw [h3]
    exact .null
  | node d key opening js sub hk f1 f2 h3 hlen _ ih =>
    refine (load_iff_step _ _ _ _).2 ⟨d, rfl, hk, f1, f2, ?_⟩
    rw [h3]
    exact .value ⟨_, _, SegmentGroup.forall₂_of_zip _ _ hlen ih⟩

theorem load_iff (j : Json) (s : Sgh) : load j = .ok s ↔ DescribesHierarchy j s :=
  ⟨describes_of_load _ j (Nat.lt_succ_self _) s, load_of_describes⟩

end Sgh

end Verif
