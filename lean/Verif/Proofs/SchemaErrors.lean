import Verif.Spec.SchemaErrors
import Verif.Proofs.SchemaLoad
import Verif.Proofs.Raises
/-!
# Lemmas: the exceptions of `load`
-/

namespace Verif

/-! ## first refused parts -/

theorem FirstRefused.not_nil {e : Exc} : ¬ FirstRefused [] e := by
  rintro ⟨b, p, a, h, _⟩
  cases b <;> cases h

theorem firstRefused_cons {p : Part} {ps : List Part} {e : Exc} :
    FirstRefused (p :: ps) e ↔ Refused p e ∨ (∀ e', ¬ Refused p e') ∧ FirstRefused ps e := by
  constructor
  · rintro ⟨b, q, a, h, hr, hb⟩
    cases b with
    | nil => cases h; exact .inl hr
    | cons x b =>
      cases h
      exact .inr ⟨hb _ (List.mem_cons_self ..), b, q, a, rfl, hr, fun r hm => hb r (List.mem_cons_of_mem _ hm)⟩
  · rintro (h | ⟨hp, b, q, a, rfl, hr, hb⟩)
    · exact ⟨[], p, ps, rfl, h, by simp⟩
    · refine ⟨p :: b, q, a, rfl, hr, ?_⟩
      intro r hm
      rcases List.mem_cons.1 hm with rfl | hm
      · exact hp
      · exact hb r hm

theorem firstRefused_singleton {p : Part} {e : Exc} : FirstRefused [p] e ↔ Refused p e := by
  rw [firstRefused_cons]
  constructor
  · rintro (h | ⟨_, h⟩)
    · exact h
    · exact absurd h FirstRefused.not_nil
  · exact .inl

theorem noneRefused_cons {p : Part} {ps : List Part} : NoneRefused (p :: ps) ↔ (∀ e, ¬ Refused p e) ∧ NoneRefused ps := by
  unfold NoneRefused
  simp

theorem firstRefused_append {ps qs : List Part} {e : Exc} :
    FirstRefused (ps ++ qs) e ↔ FirstRefused ps e ∨ NoneRefused ps ∧ FirstRefused qs e := by
  induction ps with
  | nil => simp [FirstRefused.not_nil, NoneRefused]
  | cons p ps ih =>
    rw [List.cons_append, firstRefused_cons, firstRefused_cons, noneRefused_cons, ih]
    constructor
    · rintro (h | ⟨h, h' | ⟨h', h''⟩⟩)
      · exact .inl (.inl h)
      · exact .inl (.inr ⟨h, h'⟩)
      · exact .inr ⟨⟨h, h'⟩, h''⟩
    · rintro ((h | ⟨h, h'⟩) | ⟨⟨h, h'⟩, h''⟩)
      · exact .inl h
      · exact .inr ⟨h, .inl h'⟩
      · exact .inr ⟨h, .inr ⟨h', h''⟩⟩

theorem noneRefused_iff {ps : List Part} : NoneRefused ps ↔ ∀ e, ¬ FirstRefused ps e := by
  induction ps with
  | nil => simp [FirstRefused.not_nil, NoneRefused]
  | cons p ps ih =>
    rw [noneRefused_cons, ih]
    constructor
    · rintro ⟨h, h'⟩ e he
      rcases firstRefused_cons.1 he with he | ⟨_, he⟩
      · exact h e he
      · exact h' e he
    · intro h
      have hp : ∀ e, ¬ Refused p e := fun e he => h e (firstRefused_cons.2 (.inl he))
      exact ⟨hp, fun e he => h e (firstRefused_cons.2 (.inr ⟨hp, he⟩))⟩

/-! ## lists -/

/-- the exceptions of `load j` other than `ValidationError` are those of the first refused part -/
def RaisesFirst {α : Type} (load : Json → PyRes α) (parts : Json → List Part) (j : Json) : Prop :=
  ∀ e, load j = .error e ∧ e ≠ .validationError ↔ FirstRefused (parts j) e

theorem loadItems_error {α : Type} (load : Json → PyRes α) (parts : Json → List Part) :
    ∀ (js : List Json), (∀ j ∈ js, RaisesFirst load parts j) → ∀ e, loadItems load js = .error e ↔ FirstRefused (js.flatMap parts) e
  | [], _, e => by
    rw [loadItems]
    simp [FirstRefused.not_nil]
  | j :: js, h, e => by
    have hj := h j (List.mem_cons_self ..)
    have ih := loadItems_error load parts js (fun i hi => h i (List.mem_cons_of_mem _ hi)) e
    rw [List.flatMap_cons, firstRefused_append, noneRefused_iff, ← ih, loadItems]
    have hn : (∀ e, ¬ (load j = .error e ∧ e ≠ .validationError)) → (∀ e, ¬ FirstRefused (parts j) e) :=
      fun h e he => h e ((hj e).2 he)
    cases hl : load j with
    | ok a =>
      have h0 := hn (by intro e ⟨h, _⟩; rw [hl] at h; cases h)
      unfold collect
      cases hr : loadItems load js with
      | ok r => simp [Bind.bind, Except.bind, pure, Except.pure, h0 e]
      | error e' => simp [Bind.bind, Except.bind, h0]
    | error e' =>
      by_cases hv : e' = .validationError
      · subst hv
        have h0 := hn (by intro e ⟨h, hne⟩; rw [hl] at h; cases h; exact hne rfl)
        unfold collect
        cases hr : loadItems load js with
        | ok r => simp [Bind.bind, Except.bind, pure, Except.pure, h0 e]
        | error e' => simp [Bind.bind, Except.bind, h0]
      · have h1 : collect (Except.error e') (loadItems load js) = .error e' := by
          unfold collect
          cases e' <;> first | rfl | exact absurd rfl hv
        rw [h1]
        have hf := (hj e').1 ⟨hl, hv⟩
        constructor
        · intro h; cases h; exact .inl hf
        · rintro (h | ⟨h, _⟩)
          · have := ((hj e).2 h).1
            rw [hl] at this
            cases this
            rfl
          · exact absurd hf (h e')

theorem loadListField_error {α : Type} (o : FieldOpts) (load : Json → PyRes α) (parts : Json → List Part) (key : PyStr)
    (d : List (PyStr × Json)) (h : ∀ j ∈ arrayAt key (.obj d), RaisesFirst load parts j) (e : Exc) :
    loadListField o load key d = .error e ↔ FirstRefused ((arrayAt key (.obj d)).flatMap parts) e := by
  have hat : arrayAt key (.obj d) = match dictGet key d with
    | some (.arr js) => js
    | _ => [] := rfl
  rw [hat] at h ⊢
  unfold loadListField
  generalize dictGet key d = o' at h ⊢
  cases o' with
  | none => simp [FirstRefused.not_nil]
  | some j =>
    cases j with
    | arr js =>
      dsimp only at h ⊢
      rw [← loadItems_error load parts js h e]
      unfold loadedItems
      cases loadItems load js <;> simp [Bind.bind, Except.bind, pure, Except.pure]
    | _ => simp [FirstRefused.not_nil]

theorem loadListField_noneRefused {α : Type} {o : FieldOpts} {load : Json → PyRes α} {parts : Json → List Part} {key : PyStr}
    {d : List (PyStr × Json)} (h : ∀ j ∈ arrayAt key (.obj d), RaisesFirst load parts j) :
    NoneRefused ((arrayAt key (.obj d)).flatMap parts) ↔ ∃ x, loadListField o load key d = .ok x := by
  rw [noneRefused_iff]
  simp only [← loadListField_error o load parts key d h]
  cases loadListField o load key d <;> simp

theorem flatMap_single {α β : Type} (f : α → β) (l : List α) : l.flatMap (fun a => [f a]) = l.map f := by
  induction l with
  | nil => rfl
  | cons a l ih => rw [List.flatMap_cons, ih]; rfl

/-! ## constructors raise no `ValidationError` -/

theorem AhbLine.new_ne (l : AhbLine) : AhbLine.new l ≠ .error .validationError := by
  intro h
  unfold AhbLine.new at h
  repeat' split at h
  all_goals cases h

theorem AhbMetaInformation.new_ne (m : AhbMetaInformation) : AhbMetaInformation.new m ≠ .error .validationError := by
  intro h
  unfold AhbMetaInformation.new at h
  repeat' split at h
  all_goals cases h

theorem ValuePoolEntry.new_ne (q m x : Option PyStr) : ValuePoolEntry.new q m x ≠ .error .validationError := by
  intro h
  unfold ValuePoolEntry.new at h
  repeat' split at h
  all_goals cases h

theorem DataElement.checkBase_ne (d i : Option PyStr) : DataElement.checkBase d i ≠ .error .validationError := by
  intro h
  unfold DataElement.checkBase at h
  repeat' split at h
  all_goals cases h

theorem DataElement.newFreeText_ne (d i n x : Option PyStr) (t) : DataElement.newFreeText d i n x t ≠ .error .validationError := by
  intro h
  unfold DataElement.newFreeText at h
  cases hb : DataElement.checkBase d i with
  | error e => rw [hb] at h; cases h; exact DataElement.checkBase_ne _ _ hb
  | ok a =>
    simp only [hb, Bind.bind, Except.bind, pure, Except.pure] at h
    repeat' split at h
    all_goals cases h

theorem DataElement.newValuePool_ne (d i n : Option PyStr) (p t) : DataElement.newValuePool d i n p t ≠ .error .validationError := by
  intro h
  unfold DataElement.newValuePool at h
  cases hb : DataElement.checkBase d i with
  | error e => rw [hb] at h; cases h; exact DataElement.checkBase_ne _ _ hb
  | ok a => rw [hb] at h; cases h

theorem checkSegmentLevelExpression_ne (x : Option PyStr) : checkSegmentLevelExpression x ≠ .error .validationError := by
  intro h
  unfold checkSegmentLevelExpression at h
  repeat' split at h
  all_goals cases h

theorem Segment.new_ne (d x : Option PyStr) (i l s n) : Segment.new d x i l s n ≠ .error .validationError := by
  intro h
  unfold Segment.new at h
  cases hb : checkSegmentLevelExpression x with
  | error e => rw [hb] at h; cases h; exact checkSegmentLevelExpression_ne _ hb
  | ok a =>
    simp only [hb, Bind.bind, Except.bind, pure, Except.pure] at h
    split at h <;> cases h

theorem SegmentGroup.new_ne (d x : Option PyStr) (i s g) : SegmentGroup.new d x i s g ≠ .error .validationError := by
  intro h
  unfold SegmentGroup.new at h
  cases hb : checkSegmentLevelExpression x with
  | error e => rw [hb] at h; cases h; exact checkSegmentLevelExpression_ne _ hb
  | ok a => rw [hb] at h; cases h

theorem FlatAhb.new_ne (m l) : FlatAhb.new m l ≠ .error .validationError := by
  intro h
  unfold FlatAhb.new at h
  cases hc : FlatAhb.checkLines l with
  | ok u => rw [hc] at h; cases h
  | error e =>
    rw [hc] at h
    cases h
    unfold FlatAhb.checkLines at hc
    repeat' split at hc
    all_goals cases hc

theorem RefusedBase.ne {d : List (PyStr × Json)} {disc : Option PyStr} {i : PyStr} {e : Exc} (h : RefusedBase d disc i e) :
    e ≠ .validationError := by
  rcases h with ⟨rfl, _⟩ | ⟨_, h⟩
  · rintro ⟨⟩
  · rintro rfl; exact DataElement.newValuePool_ne _ _ _ _ _ h

theorem Refused.ne {p : Part} {e : Exc} (h : Refused p e) : e ≠ .validationError := by
  cases h with
  | info d m _ _ _ _ _ _ raises => rintro rfl; exact AhbMetaInformation.new_ne _ raises
  | line d l _ _ _ _ _ _ _ _ _ _ _ _ _ raises => rintro rfl; exact AhbLine.new_ne _ raises
  | entry d q m x _ _ _ _ _ raises => rintro rfl; exact ValuePoolEntry.new_ne _ _ _ raises
  | freeText d disc i inp t x _ _ _ _ _ _ _ raises =>
    rintro rfl
    split at raises
    · cases raises
    · exact DataElement.newFreeText_ne _ _ _ _ _ raises
  | valuePool d disc i inp t x _ _ _ _ _ _ _ raises =>
    rintro rfl
    split at raises
    · cases raises
    · exact DataElement.newValuePool_ne _ _ _ _ _ raises
  | freeTextAttribute _ _ _ _ _ _ _ _ _ _ _ _ _ _ raises => exact raises.ne
  | valuePoolAttribute _ _ _ _ _ _ _ _ _ _ _ _ _ _ raises => exact raises.ne
  | segment d disc x l sec sid _ _ _ _ _ _ _ raises => rintro rfl; exact Segment.new_ne _ _ _ _ _ _ raises
  | group d disc x segs gs _ _ _ _ _ _ raises => rintro rfl; exact SegmentGroup.new_ne _ _ _ _ _ raises
  | flat d m l _ _ _ _ raises => rintro rfl; exact FlatAhb.new_ne _ _ raises
  | _ => rintro ⟨⟩

theorem FirstRefused.ne {ps : List Part} {e : Exc} (h : FirstRefused ps e) : e ≠ .validationError := by
  obtain ⟨_, _, _, _, h, _⟩ := h
  exact h.ne

/-! ## an object and its nested objects -/

/-- an object without nested objects -/
theorem RaisesFirst.single {α : Type} {load : Json → PyRes α} {part : Json → Part}
    {j : Json} (h : ∀ e, load j = .error e ∧ e ≠ .validationError ↔ Refused (part j) e) : RaisesFirst load (fun j => [part j]) j := by
  intro e
  rw [firstRefused_singleton]
  exact h e

/-- one list of nested objects -/
theorem raises_stage {α β : Type} {r : PyRes α} {nested : List Part} {p : Part} {body : α → PyRes β}
    (hn : ∀ e, r = .error e ↔ FirstRefused nested e)
    (hb : ∀ e, (∃ x, r = .ok x ∧ body x = .error e) ∧ e ≠ .validationError ↔ Refused p e) (e : Exc) :
    (r >>= body) = .error e ∧ e ≠ .validationError ↔ FirstRefused (nested ++ [p]) e := by
  rw [firstRefused_append, noneRefused_iff, firstRefused_singleton, ← hb]
  simp only [← hn]
  cases hr : r with
  | error e' =>
    have hne := ((hn e').1 hr).ne
    constructor
    · rintro ⟨h, _⟩; cases h; exact .inl rfl
    · rintro (h | ⟨h, _⟩)
      · cases h; exact ⟨rfl, hne⟩
      · exact absurd rfl (h e')
  | ok x =>
    constructor
    · rintro ⟨h, h'⟩; exact .inr ⟨fun e h => (by cases h), ⟨x, rfl, h⟩, h'⟩
    · rintro (h | ⟨_, ⟨y, hy, h⟩, h'⟩)
      · cases h
      · cases hy; exact ⟨h, h'⟩

/-- two lists of nested objects -/
theorem raises_stages {α α' β : Type} {r : PyRes α} {r' : PyRes α'} {nested nested' : List Part} {p : Part} {body : α → α' → PyRes β}
    (hn : ∀ e, r = .error e ↔ FirstRefused nested e) (hn' : ∀ e, r' = .error e ↔ FirstRefused nested' e)
    (hb : ∀ e, (∃ x y, r = .ok x ∧ r' = .ok y ∧ body x y = .error e) ∧ e ≠ .validationError ↔ Refused p e) (e : Exc) :
    (r >>= fun x => r' >>= body x) = .error e ∧ e ≠ .validationError ↔ FirstRefused (nested ++ nested' ++ [p]) e := by
  have : (r >>= fun x => r' >>= body x) = ((r >>= fun x => r' >>= fun y => pure (x, y)) >>= fun z => body z.1 z.2) := by
    cases r with
    | error e => rfl
    | ok x => cases r' <;> rfl
  rw [this]
  refine raises_stage ?_ ?_ e
  · intro e
    rw [firstRefused_append, noneRefused_iff, ← hn']
    simp only [← hn]
    cases hr : r with
    | error e' =>
      constructor
      · intro h; cases h; exact .inl rfl
      · rintro (h | ⟨h, _⟩)
        · cases h; rfl
        · exact absurd rfl (h e')
    | ok x =>
      cases hr' : r' with
      | error e' =>
        constructor
        · intro h; cases h; exact .inr ⟨fun e h => (by cases h), rfl⟩
        · rintro (h | ⟨_, h⟩)
          · cases h
          · cases h; rfl
      | ok y =>
        constructor
        · intro h; cases h
        · rintro (h | ⟨_, h⟩) <;> cases h
  · intro e
    rw [← hb e]
    refine and_congr_left fun _ => ?_
    constructor
    · rintro ⟨⟨x, y⟩, h, h'⟩
      cases hr : r with
      | error e => rw [hr] at h; cases h
      | ok x' =>
        cases hr' : r' with
        | error e => rw [hr, hr'] at h; cases h
        | ok y' => rw [hr, hr'] at h; cases h; exact ⟨_, _, rfl, rfl, h'⟩
    · rintro ⟨x, y, h1, h2, h3⟩
      refine ⟨(x, y), ?_, h3⟩
      rw [h1, h2]
      rfl

/-- not an object -/
theorem raises_nonObject {α : Type} {r : PyRes α} {ps : List Part} (hr : r = .error .validationError) (hp : NoneRefused ps) (e : Exc) :
    r = .error e ∧ e ≠ .validationError ↔ FirstRefused ps e := by
  constructor
  · rintro ⟨h, h'⟩
    rw [hr] at h
    cases h
    exact absurd rfl h'
  · intro h
    exact absurd h (noneRefused_iff.1 hp e)

/-! ## flat AHBs -/

theorem AhbLine.raises (j : Json) : RaisesFirst AhbLine.load (fun j => [.line j]) j := by
  have str : ∀ (d : List (PyStr × Json)) (key : PyStr) (x : Option PyStr),
      (strField { defaultNone := true } key d).isInvalid = false ∧ (strField { defaultNone := true } key d).getD none = x ↔
        Optional IsText none (dictGet key d) x := fun d key x =>
    loadField_optional converts_str key d { defaultNone := true } rfl (.inr rfl) none (fun _ => rfl) x
  have gu := fun (d : List (PyStr × Json)) (x : Option Nat) =>
    loadField_optional converts_uuid py!"guid" d { defaultNone := true } rfl (.inr rfl) none (fun _ => rfl) x
  have idx := fun (d : List (PyStr × Json)) (x : Option Int) =>
    loadField_optional converts_int py!"index" d { defaultNone := true } rfl (.inr rfl) none (fun _ => rfl) x
  refine RaisesFirst.single fun e => ?_
  constructor
  · rintro ⟨h, hne⟩
    unfold AhbLine.load at h
    split at h
    · rename_i d
      dsimp only at h
      split at h
      · cases h; exact absurd rfl hne
      · next hi =>
        simp only [Bool.or_eq_true, not_or, Bool.not_eq_true] at hi
        obtain ⟨⟨⟨⟨⟨⟨⟨⟨⟨⟨⟨i1, i2⟩, i3⟩, i4⟩, i5⟩, i6⟩, i7⟩, i8⟩, i9⟩, i10⟩, i11⟩, i12⟩ := hi
        exact .line d _ e ((hasUnknown_iff _ _).1 i12) ((gu d _).1 ⟨i1, rfl⟩) ((str d _ _).1 ⟨i2, rfl⟩) ((str d _ _).1 ⟨i3, rfl⟩)
          ((str d _ _).1 ⟨i4, rfl⟩) ((str d _ _).1 ⟨i5, rfl⟩) ((str d _ _).1 ⟨i6, rfl⟩) ((str d _ _).1 ⟨i7, rfl⟩)
          ((str d _ _).1 ⟨i8, rfl⟩) ((str d _ _).1 ⟨i9, rfl⟩) ((str d _ _).1 ⟨i10, rfl⟩) ((idx d _).1 ⟨i11, rfl⟩) h
    · cases h; exact absurd rfl hne
  · intro h
    cases h with
    | line d l _ keys f1 f2 f3 f4 f5 f6 f7 f8 f9 f10 f11 raises =>
    obtain ⟨a1, b1⟩ := (gu d _).2 f1
    obtain ⟨a2, b2⟩ := (str d _ _).2 f2
    obtain ⟨a3, b3⟩ := (str d _ _).2 f3
    obtain ⟨a4, b4⟩ := (str d _ _).2 f4
    obtain ⟨a5, b5⟩ := (str d _ _).2 f5
    obtain ⟨a6, b6⟩ := (str d _ _).2 f6
    obtain ⟨a7, b7⟩ := (str d _ _).2 f7
    obtain ⟨a8, b8⟩ := (str d _ _).2 f8
    obtain ⟨a9, b9⟩ := (str d _ _).2 f9
    obtain ⟨a10, b10⟩ := (str d _ _).2 f10
    obtain ⟨a11, b11⟩ := (idx d _).2 f11
    have a12 : hasUnknown ahbLineKeys d = false := (hasUnknown_iff _ _).2 keys
    constructor
    · unfold AhbLine.load
      dsimp only
      rw [a1, a2, a3, a4, a5, a6, a7, a8, a9, a10, a11, a12, b1, b2, b3, b4, b5, b6, b7, b8, b9, b10, b11]
      exact raises
    · rintro rfl
      exact AhbLine.new_ne _ raises

theorem AhbMetaInformation.raises (j : Json) : RaisesFirst AhbMetaInformation.load (fun j => [.info j]) j := by
  have req := fun (d : List (PyStr × Json)) (key : PyStr) (x : Option PyStr) => loadField_given converts_str key d x
  have opt : ∀ (d : List (PyStr × Json)) (key : PyStr) (dflt x : Option PyStr),
      (strField { allowNone := true } key d).isInvalid = false ∧ (strField { allowNone := true } key d).getD dflt = x ↔
        Optional IsText dflt (dictGet key d) x := fun d key dflt x =>
    loadField_optional converts_str key d { allowNone := true } rfl (.inl rfl) dflt (fun h => by cases h) x
  refine RaisesFirst.single fun e => ?_
  constructor
  · rintro ⟨h, hne⟩
    unfold AhbMetaInformation.load at h
    split at h
    · rename_i d
      dsimp only at h
      split at h
      · cases h; exact absurd rfl hne
      · next hi =>
        simp only [Bool.or_eq_true, not_or, Bool.not_eq_true] at hi
        obtain ⟨⟨⟨⟨i1, i2⟩, i3⟩, i4⟩, i5⟩ := hi
        obtain ⟨p, hp, hp'⟩ := (req d _ _).1 ⟨i1, rfl⟩
        have hp'' : (strField { required := true } py!"pruefidentifikator" d).getD none = some p := hp
        rw [hp''] at h
        exact .info d _ e ((hasUnknown_iff _ _).1 i5) hp' ((opt d _ _ _).1 ⟨i2, rfl⟩) ((opt d _ _ _).1 ⟨i3, rfl⟩)
          ((opt d _ _ _).1 ⟨i4, rfl⟩) h
    · cases h; exact absurd rfl hne
  · intro h
    cases h with
    | info d m _ keys f1 f2 f3 f4 raises =>
    obtain ⟨a1, b1⟩ := (req d _ _).2 ⟨_, rfl, f1⟩
    obtain ⟨a2, b2⟩ := (opt d _ _ _).2 f2
    obtain ⟨a3, b3⟩ := (opt d _ _ _).2 f3
    obtain ⟨a4, b4⟩ := (opt d _ _ _).2 f4
    have a5 : hasUnknown ahbMetaKeys d = false := (hasUnknown_iff _ _).2 keys
    have a1' : (strField { required := true } py!"pruefidentifikator" d).isInvalid = false := a1
    have b1' : (strField { required := true } py!"pruefidentifikator" d).getD none = some m.pruefidentifikator := b1
    have b2' : (strField { allowNone := true } py!"maus_version" d).getD (some Verif.mausVersion) = m.mausVersion := b2
    constructor
    · unfold AhbMetaInformation.load
      dsimp only
      rw [a1', a2, a3, a4, a5, b1', b2', b3, b4]
      exact raises
    · rintro rfl
      exact AhbMetaInformation.new_ne _ raises

/-! ## handbooks -/

theorem loadNestedField_error {α : Type} (load : Json → PyRes α) (part : Json → Part) (key : PyStr) (d : List (PyStr × Json))
    (hnull : ∀ e, load .null = .error e → e = .validationError)
    (h : ∀ j, RaisesFirst load (fun j => [part j]) j) (e : Exc) :
    loadNestedField load key d = .error e ↔ FirstRefused ((memberAt key (.obj d)).map part) e := by
  have hat : memberAt key (.obj d) = (dictGet key d).toList := rfl
  rw [hat]
  unfold loadNestedField
  generalize dictGet key d = o
  cases o with
  | none => simp [FirstRefused.not_nil]
  | some j =>
    have hj := h j e
    dsimp only at hj
    simp only [Option.toList_some, List.map_cons, List.map_nil]
    rw [← hj]
    cases hc : load j with
    | ok a => cases j <;> simp [hc]
    | error e' =>
      by_cases hv : e' = .validationError
      · subst hv
        cases j <;> simp [hc] <;> (intro h; exact h.symm)
      · cases j with
        | null => exact absurd (hnull _ hc) hv
        | _ =>
          simp only [hc]
          constructor
          · intro h; cases h; exact ⟨rfl, hv⟩
          · rintro ⟨h, _⟩; cases h; rfl

theorem missingOr_nested {α : Type} (load : Json → PyRes α) (P : Json → α → Prop) (hP : ∀ j a, load j = .ok a ↔ P j a)
    (hn : ∀ a, load .null ≠ .ok a) (key : PyStr) (d : List (PyStr × Json)) :
    (∃ x, loadNestedField load key d = .ok x ∧ x.isInvalid = false) ↔ MissingOr P (dictGet key d) := by
  have hP' : (fun j a => load j = .ok a) = P := by funext j a; exact propext (hP j a)
  constructor
  · rintro ⟨x, hx, hi⟩
    cases x with
    | invalid => cases hi
    | value a =>
      rw [loadNestedField_value load hn, hP'] at hx
      exact .inr ⟨a, hx⟩
    | missing =>
      left
      unfold loadNestedField at hx
      split at hx
      · assumption
      · cases hx
      · split at hx <;> cases hx
  · rintro (h | ⟨a, h⟩)
    · refine ⟨.missing, ?_, rfl⟩
      unfold loadNestedField
      rw [h]
    · refine ⟨.value a, ?_, rfl⟩
      rw [loadNestedField_value load hn, hP']
      exact h

theorem missingOr_list {α : Type} (load : Json → PyRes α) (P : Json → α → Prop) (hP : ∀ j a, load j = .ok a ↔ P j a)
    (key : PyStr) (d : List (PyStr × Json)) :
    (∃ x, loadListField {} load key d = .ok x ∧ x.isInvalid = false) ↔ MissingOr (IsList P) (dictGet key d) := by
  have hP' : (fun j a => load j = .ok a) = P := by funext j a; exact propext (hP j a)
  constructor
  · rintro ⟨x, hx, hi⟩
    cases x with
    | invalid => cases hi
    | value a =>
      cases a with
      | none => exact absurd hx (loadListField_required _ _ _ _ ⟨rfl, rfl⟩)
      | some l =>
        rw [loadListField_some, hP'] at hx
        exact .inr ⟨l, hx⟩
    | missing =>
      left
      unfold loadListField at hx
      split at hx
      · assumption
      · cases hx
      · unfold loadedItems at hx
        cases hl : loadItems load (by assumption) with
        | error e => simp [hl, Bind.bind, Except.bind] at hx
        | ok r => cases r <;> simp [hl, Bind.bind, Except.bind, pure, Except.pure] at hx
      · cases hx
  · rintro (h | ⟨a, h⟩)
    · refine ⟨.missing, ?_, rfl⟩
      unfold loadListField
      rw [h]
      rfl
    · refine ⟨.value (some a), ?_, rfl⟩
      rw [loadListField_some, hP']
      exact h

/-- the two handbook schemas -/
theorem loadHandbook_raises {α β : Type} (load : Json → PyRes α) (make : AhbMetaInformation → List α → PyRes β)
    (P : Json → α → Prop) (hP : ∀ j a, load j = .ok a ↔ P j a) (parts : Json → List Part) (part : Json → Part)
    (hload : ∀ j, RaisesFirst load parts j) (hmake : ∀ m l, make m l ≠ .error .validationError)
    (hrefused : ∀ j e, Refused (part j) e ↔ ∃ d, j = .obj d ∧ OnlyKeys [py!"meta", py!"lines"] d ∧
      ((∃ m l, Given DescribesMeta (dictGet py!"meta" d) m ∧ Given (IsList P) (dictGet py!"lines" d) l ∧ make m l = .error e) ∨
        e = .typeError ∧ MissingOr DescribesMeta (dictGet py!"meta" d) ∧ MissingOr (IsList P) (dictGet py!"lines" d) ∧
          (dictGet py!"meta" d = none ∨ dictGet py!"lines" d = none))) (j : Json) :
    RaisesFirst (loadHandbook load make)
      (fun j => (memberAt py!"meta" j).map .info ++ (arrayAt py!"lines" j).flatMap parts ++ [part j]) j := by
  intro e
  cases j with
  | obj d =>
    have hP' : (fun j a => load j = .ok a) = P := by funext j a; exact propext (hP j a)
    have hM' : (fun j a => AhbMetaInformation.load j = .ok a) = DescribesMeta := by
      funext j a; exact propext (AhbMetaInformation.load_iff j a)
    have mm := missingOr_nested AhbMetaInformation.load DescribesMeta AhbMetaInformation.load_iff (by intro a h; cases h) py!"meta" d
    have ml := missingOr_list load P hP py!"lines" d
    have gm := loadNestedField_value AhbMetaInformation.load (by intro a h; cases h) py!"meta" d
    have gl := loadListField_some {} load py!"lines" d
    rw [hM'] at gm
    rw [hP'] at gl
    unfold loadHandbook
    refine raises_stages
      (loadNestedField_error AhbMetaInformation.load .info py!"meta" d (by intro e h; cases h; rfl) AhbMetaInformation.raises)
      (loadListField_error {} load parts py!"lines" d (fun j _ => hload j)) ?_ e
    intro e
    rw [hrefused]
    constructor
    · rintro ⟨⟨x, y, hx, hy, h⟩, hne⟩
      split at h
      · cases h; exact absurd rfl hne
      · next hi =>
        simp only [Bool.or_eq_true, not_or, Bool.not_eq_true] at hi
        obtain ⟨⟨i1, i2⟩, i3⟩ := hi
        refine ⟨d, rfl, (hasUnknown_iff _ _).1 i3, ?_⟩
        split at h
        · next m l => exact .inl ⟨m, l, (gm m).1 hx, (gl l).1 hy, h⟩
        · next hno =>
          cases h
          refine .inr ⟨rfl, mm.1 ⟨x, hx, i1⟩, ml.1 ⟨y, hy, i2⟩, ?_⟩
          by_contra hcon
          rw [not_or] at hcon
          rcases mm.1 ⟨x, hx, i1⟩ with h | ⟨m, h⟩
          · exact hcon.1 h
          · rcases ml.1 ⟨y, hy, i2⟩ with h' | ⟨l, h'⟩
            · exact hcon.2 h'
            · have h1 := (gm m).2 h
              have h2 := (gl l).2 h'
              rw [hx] at h1
              rw [hy] at h2
              cases h1
              cases h2
              exact hno _ _ rfl rfl
    · rintro ⟨d', hd, hk, h⟩
      cases hd
      have i3 := (hasUnknown_iff _ _).2 hk
      rcases h with ⟨m, l, h1, h2, h3⟩ | ⟨rfl, h1, h2, h3⟩
      · refine ⟨⟨_, _, (gm m).2 h1, (gl l).2 h2, ?_⟩, ?_⟩
        · rw [i3]; exact h3
        · rintro rfl; exact hmake _ _ h3
      · obtain ⟨x, hx, i1⟩ := mm.2 h1
        obtain ⟨y, hy, i2⟩ := ml.2 h2
        refine ⟨⟨x, y, hx, hy, ?_⟩, by rintro ⟨⟩⟩
        rw [i1, i2, i3]
        simp only [Bool.or_self, Bool.false_eq_true, if_false]
        split
        · next m l =>
          have h1 := (gm m).1 hx
          have h2 := (gl l).1 hy
          rcases h3 with h | h
          · rw [h] at h1; cases h1
          · rw [h] at h2; cases h2
        · rfl
  | _ =>
    refine raises_nonObject rfl ?_ e
    intro p hp e h
    simp only [memberAt, arrayAt, List.map_nil, List.flatMap_nil, List.nil_append, List.mem_singleton] at hp
    subst hp
    obtain ⟨d, hd, _⟩ := (hrefused _ _).1 h
    cases hd

theorem FlatAhb.raises (j : Json) : RaisesFirst FlatAhb.load flatParts j := by
  have := loadHandbook_raises AhbLine.load FlatAhb.new DescribesLine AhbLine.load_iff (fun j => [.line j]) .flat AhbLine.raises
    FlatAhb.new_ne (by
      intro j e
      constructor
      · intro h
        cases h with
        | flat d m l _ keys f1 f2 raises => exact ⟨d, rfl, keys, .inl ⟨m, l, f1, f2, raises⟩⟩
        | flatIncomplete d keys f1 f2 h => exact ⟨d, rfl, keys, .inr ⟨rfl, f1, f2, h⟩⟩
      · rintro ⟨d, rfl, keys, ⟨m, l, f1, f2, raises⟩ | ⟨rfl, f1, f2, h⟩⟩
        · exact .flat d m l e keys f1 f2 raises
        · exact .flatIncomplete d keys f1 f2 h) j
  unfold flatParts
  simp only [flatMap_single] at this
  exact this

/-! ## data elements -/

theorem ValuePoolEntry.raises (j : Json) : RaisesFirst ValuePoolEntry.load (fun j => [.entry j]) j := by
  refine RaisesFirst.single fun e => ?_
  constructor
  · rintro ⟨h, hne⟩
    unfold ValuePoolEntry.load at h
    split at h
    · rename_i d
      dsimp only at h
      split at h
      · cases h; exact absurd rfl hne
      · next hi =>
        simp only [Bool.or_eq_true, not_or, Bool.not_eq_true] at hi
        obtain ⟨⟨⟨i1, i2⟩, i3⟩, i4⟩ := hi
        obtain ⟨q, hq, g1⟩ := (strField_given d _ _).1 ⟨i1, rfl⟩
        obtain ⟨m, hm, g2⟩ := (strField_given d _ _).1 ⟨i2, rfl⟩
        obtain ⟨x, hx, g3⟩ := (strField_given d _ _).1 ⟨i3, rfl⟩
        rw [hq, hm, hx] at h
        exact .entry d q m x e ((hasUnknown_iff _ _).1 i4) g1 g2 g3 h
    · cases h; exact absurd rfl hne
  · intro h
    refine ⟨?_, h.ne⟩
    cases h with
    | entry d q m x _ keys f1 f2 f3 raises =>
    obtain ⟨a1, b1⟩ := (strField_given d _ _).2 ⟨_, rfl, f1⟩
    obtain ⟨a2, b2⟩ := (strField_given d _ _).2 ⟨_, rfl, f2⟩
    obtain ⟨a3, b3⟩ := (strField_given d _ _).2 ⟨_, rfl, f3⟩
    unfold ValuePoolEntry.load
    dsimp only
    rw [a1, a2, a3, (hasUnknown_iff _ _).2 keys, b1, b2, b3]
    exact raises

/-- `allow_none=True`: the argument is missing iff the key is -/
theorem strField_isMissing (d : List (PyStr × Json)) (key : PyStr) :
    (strField { allowNone := true } key d).isMissing = decide (dictGet key d = none) := by
  unfold strField loadField
  cases dictGet key d with
  | none => rfl
  | some j => cases j <;> rfl

/-- the field `value_type`, when it holds something else -/
theorem loadType_other (d : List (PyStr × Json)) (dflt : DataElementDataType) :
    (loadField {} convDataType py!"value_type" d).isInvalid = false ∧
      (loadField {} convDataType py!"value_type" d).getD (some (.type (some dflt))) = some .other ↔
      ∃ s, dictGet py!"value_type" d = some (.str s) ∧ s ∈ dataTypeAttributes := by
  rw [loadField_givenOrDefault converts_type]
  generalize dictGet py!"value_type" d = o
  constructor
  · intro h
    cases h with
    | value h => cases h with
      | other s h => exact ⟨s, rfl, h⟩
  · rintro ⟨s, rfl, h⟩
    exact .value (.other s h)

/-- the field `value_type` does not give an argument without value -/
theorem loadType_ne_none (d : List (PyStr × Json)) (dflt : TypeArg) :
    (loadField {} convDataType py!"value_type" d).getD (some dflt) ≠ none := by
  unfold loadField
  split
  · simp [Loaded.getD]
  · simp [Loaded.getD]
  · split <;> simp [Loaded.getD]

/-- what the constructor raises when the value type is something else -/
theorem withType_other (d : List (PyStr × Json)) (disc : Option PyStr) (i : PyStr) (f : Option DataElementDataType → PyRes DataElement)
    (e : Exc) :
    (if decide (dictGet py!"discriminator" d = none) = true then .error .typeError
      else DataElement.withType (some .other) disc (some i) f) = .error e ↔ RefusedBase d disc i e := by
  unfold RefusedBase
  by_cases hd : dictGet py!"discriminator" d = none
  · rw [decide_eq_true hd, if_pos rfl]
    constructor
    · intro h; cases h; exact .inl ⟨rfl, .inl hd⟩
    · rintro (⟨rfl, _⟩ | ⟨h, _⟩)
      · rfl
      · exact absurd hd h
  · rw [decide_eq_false hd, if_neg (by simp)]
    unfold DataElement.withType DataElement.newValuePool
    cases hb : DataElement.checkBase disc (some i) with
    | error e' => simp [hd, Bind.bind, Except.bind]
    | ok x =>
      simp only [hd, Bind.bind, Except.bind, pure, Except.pure]
      constructor
      · intro h; cases h; exact .inl ⟨rfl, .inr ⟨_, rfl⟩⟩
      · rintro (⟨rfl, _⟩ | ⟨_, h⟩)
        · rfl
        · cases h

theorem DataElement.raises (j : Json) : RaisesFirst DataElement.load dataElementParts j := by
  intro e
  unfold dataElementParts
  cases j with
  | obj d =>
    rw [DataElement.load]
    have hP : (fun j a => ValuePoolEntry.load j = .ok a) = DescribesEntry := by
      funext j a; exact propext (ValuePoolEntry.load_iff j a)
    split
    · next hs =>
      unfold DataElement.loadValuePool
      rw [← flatMap_single]
      refine raises_stage (loadListField_error { required := true } ValuePoolEntry.load _ py!"value_pool" d
        (fun j _ => ValuePoolEntry.raises j)) ?_ e
      intro e
      constructor
      · rintro ⟨⟨x, hx, h⟩, hne⟩
        split at h
        · cases h; exact absurd rfl hne
        · next hi =>
          simp only [Bool.or_eq_true, not_or, Bool.not_eq_true] at hi
          obtain ⟨⟨⟨⟨⟨i1, i2⟩, i3⟩, i4⟩, i5⟩, i6⟩ := hi
          obtain ⟨i, hid, g2⟩ := (strField_given d _ _).1 ⟨i2, rfl⟩
          have hx' : ∃ l, x = .value (some l) := by
            cases x with
            | missing => exact absurd hx (loadListField_not_missing _ _ _ _ (.inl rfl))
            | invalid => cases i5
            | value o =>
              cases o with
              | none => exact absurd hx (loadListField_required _ _ _ _ ⟨rfl, rfl⟩)
              | some l => exact ⟨l, rfl⟩
          obtain ⟨l, rfl⟩ := hx'
          have g5 := (loadListField_some _ _ _ _ _).1 hx
          rw [hP] at g5
          rw [hid, strField_isMissing] at h
          cases ht : (loadField {} convDataType py!"value_type" d).getD (some (.type (some .valuePool))) with
          | none => exact absurd ht (loadType_ne_none _ _)
          | some arg =>
          rw [ht] at h
          cases arg with
          | other =>
            obtain ⟨name, hname, hother⟩ := (loadType_other d _).1 ⟨i4, ht⟩
            exact .valuePoolAttribute d _ i _ name l e ((hasUnknown_iff _ _).1 i6) ((strField_allowNone d _ _).1 ⟨i1, rfl⟩) g2
              ((strField_optional d _ _).1 ⟨i3, rfl⟩) hname hother g5 ((withType_other d _ i _ e).1 h)
          | type t =>
          rw [DataElement.withType_type] at h
          refine .valuePool d _ i _ t l e ((hasUnknown_iff _ _).1 i6) ((strField_allowNone d _ _).1 ⟨i1, rfl⟩) g2
            ((strField_optional d _ _).1 ⟨i3, rfl⟩) ((loadType_type d _ _).1 ⟨i4, ht⟩) g5 ?_
          by_cases hd : dictGet py!"discriminator" d = none
          · rw [decide_eq_true hd, if_pos rfl] at h
            rw [if_pos hd]
            cases h
            rfl
          · rw [decide_eq_false hd, if_neg (by simp)] at h
            rw [if_neg hd]
            exact h
      · intro h
        refine ⟨?_, h.ne⟩
        cases h with
        | freeText _ _ _ _ _ _ _ keys =>
          exfalso
          obtain ⟨v, hv⟩ := Option.isSome_iff_exists.1 hs
          have := keys _ _ (dictGet_mem _ _ _ hv)
          revert this
          decide
        | freeTextAttribute _ _ _ _ _ _ _ keys =>
          exfalso
          obtain ⟨v, hv⟩ := Option.isSome_iff_exists.1 hs
          have := keys _ _ (dictGet_mem _ _ _ hv)
          revert this
          decide
        | valuePoolAttribute _ disc i inp name p _ keys f1 f2 f3 f4 f4' f5 raises =>
          obtain ⟨a1, b1⟩ := (strField_allowNone d _ _).2 f1
          obtain ⟨a2, b2⟩ := (strField_given d _ _).2 ⟨_, rfl, f2⟩
          obtain ⟨a3, b3⟩ := (strField_optional d _ _).2 f3
          obtain ⟨a4, b4⟩ := (loadType_other d .valuePool).2 ⟨name, f4, f4'⟩
          rw [← hP] at f5
          have b5 := (loadListField_some { required := true } _ _ d _).2 f5
          refine ⟨_, b5, ?_⟩
          have a6 : hasUnknown (dataElementKeys ++ [py!"value_pool"]) d = false := (hasUnknown_iff _ _).2 keys
          rw [a1, a2, a3, a4, a6, b1, b2, b3, b4, strField_isMissing]
          exact (withType_other d disc i _ e).2 raises
        | valuePool _ disc i inp t p _ keys f1 f2 f3 f4 f5 raises =>
          obtain ⟨a1, b1⟩ := (strField_allowNone d _ _).2 f1
          obtain ⟨a2, b2⟩ := (strField_given d _ _).2 ⟨_, rfl, f2⟩
          obtain ⟨a3, b3⟩ := (strField_optional d _ _).2 f3
          obtain ⟨a4, b4⟩ := (loadType_type d _ _).2 f4
          rw [← hP] at f5
          have b5 := (loadListField_some { required := true } _ _ d _).2 f5
          refine ⟨_, b5, ?_⟩
          have a6 : hasUnknown (dataElementKeys ++ [py!"value_pool"]) d = false := (hasUnknown_iff _ _).2 keys
          rw [a1, a2, a3, a4, a6, b1, b2, b3, b4, strField_isMissing]
          by_cases hd : dictGet py!"discriminator" d = none
          · rw [if_pos hd] at raises
            rw [decide_eq_true hd, raises]
            rfl
          · rw [if_neg hd] at raises
            rw [decide_eq_false hd]
            exact raises
    · next hs =>
      have hv : dictGet py!"value_pool" d = none := by simpa using hs
      have h0 : arrayAt py!"value_pool" (.obj d) = [] := by
        have : arrayAt py!"value_pool" (.obj d) = match dictGet py!"value_pool" d with
          | some (.arr js) => js
          | _ => [] := rfl
        rw [this, hv]
      rw [h0, List.map_nil, List.nil_append, firstRefused_singleton]
      unfold DataElement.loadFreeText
      constructor
      · rintro ⟨h, hne⟩
        dsimp only at h
        split at h
        · cases h; exact absurd rfl hne
        · next hi =>
          simp only [Bool.or_eq_true, not_or, Bool.not_eq_true] at hi
          obtain ⟨⟨⟨⟨⟨i1, i2⟩, i3⟩, i4⟩, i5⟩, i6⟩ := hi
          obtain ⟨i, hid, g2⟩ := (strField_given d _ _).1 ⟨i2, rfl⟩
          rw [hid, strField_isMissing] at h
          cases ht : (loadField {} convDataType py!"value_type" d).getD (some (.type (some .text))) with
          | none => exact absurd ht (loadType_ne_none _ _)
          | some arg =>
          rw [ht] at h
          cases arg with
          | other =>
            obtain ⟨name, hname, hother⟩ := (loadType_other d _).1 ⟨i4, ht⟩
            exact .freeTextAttribute d _ i _ name _ e ((hasUnknown_iff _ _).1 i6) ((strField_allowNone d _ _).1 ⟨i1, rfl⟩) g2
              ((strField_optional d _ _).1 ⟨i3, rfl⟩) hname hother ((strField_requiredOrNull d _ _).1 ⟨i5, rfl⟩)
              ((withType_other d _ i _ e).1 h)
          | type t =>
          rw [DataElement.withType_type] at h
          refine .freeText d _ i _ t _ e ((hasUnknown_iff _ _).1 i6) ((strField_allowNone d _ _).1 ⟨i1, rfl⟩) g2
            ((strField_optional d _ _).1 ⟨i3, rfl⟩) ((loadType_type d _ _).1 ⟨i4, ht⟩) ((strField_requiredOrNull d _ _).1 ⟨i5, rfl⟩) ?_
          by_cases hd : dictGet py!"discriminator" d = none
          · rw [decide_eq_true hd, if_pos rfl] at h
            rw [if_pos hd]
            cases h
            rfl
          · rw [decide_eq_false hd, if_neg (by simp)] at h
            rw [if_neg hd]
            exact h
      · intro h
        refine ⟨?_, h.ne⟩
        cases h with
        | valuePool _ _ _ _ _ _ _ _ _ _ _ _ f5 =>
          rw [hv] at f5
          cases f5
        | valuePoolAttribute _ _ _ _ _ _ _ _ _ _ _ _ _ f5 =>
          rw [hv] at f5
          cases f5
        | freeTextAttribute _ disc i inp name x _ keys f1 f2 f3 f4 f4' f5 raises =>
          obtain ⟨a1, b1⟩ := (strField_allowNone d _ _).2 f1
          obtain ⟨a2, b2⟩ := (strField_given d _ _).2 ⟨_, rfl, f2⟩
          obtain ⟨a3, b3⟩ := (strField_optional d _ _).2 f3
          obtain ⟨a4, b4⟩ := (loadType_other d .text).2 ⟨name, f4, f4'⟩
          obtain ⟨a5, b5⟩ := (strField_requiredOrNull d _ _).2 f5
          have a6 : hasUnknown (dataElementKeys ++ [py!"ahb_expression"]) d = false := (hasUnknown_iff _ _).2 keys
          dsimp only
          rw [a1, a2, a3, a4, a5, a6, b1, b2, b3, b4, b5, strField_isMissing]
          exact (withType_other d disc i _ e).2 raises
        | freeText _ disc i inp t x _ keys f1 f2 f3 f4 f5 raises =>
          obtain ⟨a1, b1⟩ := (strField_allowNone d _ _).2 f1
          obtain ⟨a2, b2⟩ := (strField_given d _ _).2 ⟨_, rfl, f2⟩
          obtain ⟨a3, b3⟩ := (strField_optional d _ _).2 f3
          obtain ⟨a4, b4⟩ := (loadType_type d _ _).2 f4
          obtain ⟨a5, b5⟩ := (strField_requiredOrNull d _ _).2 f5
          have a6 : hasUnknown (dataElementKeys ++ [py!"ahb_expression"]) d = false := (hasUnknown_iff _ _).2 keys
          dsimp only
          rw [a1, a2, a3, a4, a5, a6, b1, b2, b3, b4, b5, strField_isMissing]
          by_cases hd : dictGet py!"discriminator" d = none
          · rw [if_pos hd] at raises
            rw [decide_eq_true hd, raises]
            rfl
          · rw [if_neg hd] at raises
            rw [decide_eq_false hd]
            exact raises
  | num i =>
    change _ ↔ FirstRefused [.dataElement (.num i)] e
    rw [firstRefused_singleton, DataElement.load]
    constructor
    · rintro ⟨h, _⟩; cases h; exact .number i
    · intro h; cases h; exact ⟨rfl, by rintro ⟨⟩⟩
  | float f =>
    change _ ↔ FirstRefused [.dataElement (.float f)] e
    rw [firstRefused_singleton, DataElement.load]
    constructor
    · rintro ⟨h, _⟩; cases h; exact .float f
    · intro h; cases h; exact ⟨rfl, by rintro ⟨⟩⟩
  | bool b =>
    change _ ↔ FirstRefused [.dataElement (.bool b)] e
    rw [firstRefused_singleton, DataElement.load]
    constructor
    · rintro ⟨h, _⟩; cases h; exact .boolean b
    · intro h; cases h; exact ⟨rfl, by rintro ⟨⟩⟩
  | _ =>
    refine raises_nonObject rfl ?_ e
    intro p hp e h
    simp only [arrayAt, List.map_nil, List.nil_append, List.mem_singleton] at hp
    subst hp
    cases h

/-! ## segments and groups -/

theorem strField_givenOrDefault (d : List (PyStr × Json)) (key : PyStr) (x : Option PyStr) :
    (strField {} key d).isInvalid = false ∧ (strField {} key d).getD none = x ↔ GivenOrDefault IsText none (dictGet key d) x :=
  loadField_givenOrDefault converts_str key d none x

theorem Segment.raises (j : Json) : RaisesFirst Segment.load segmentParts j := by
  intro e
  unfold segmentParts
  cases j with
  | obj d =>
    unfold Segment.load
    have hP : (fun j a => DataElement.load j = .ok a) = DescribesDataElement := by
      funext j a; exact propext (DataElement.load_iff j a)
    refine raises_stage (loadListField_error {} DataElement.load _ py!"data_elements" d (fun j _ => DataElement.raises j)) ?_ e
    intro e
    constructor
    · rintro ⟨⟨x, hx, h⟩, hne⟩
      dsimp only at h
      split at h
      · cases h; exact absurd rfl hne
      · next hi =>
        simp only [Bool.or_eq_true, not_or, Bool.not_eq_true] at hi
        obtain ⟨⟨⟨⟨⟨i1, i2⟩, i3⟩, i4⟩, i5⟩, i6⟩ := hi
        obtain ⟨disc, hdisc, g1⟩ := (strField_given d _ _).1 ⟨i1, rfl⟩
        have g2 := (strField_requiredOrNull d _ _).1 ⟨i2, rfl⟩
        have g4 := (strField_givenOrDefault d _ _).1 ⟨i4, rfl⟩
        have g5 := (strField_allowNone d _ _).1 ⟨i5, rfl⟩
        have g6 := (hasUnknown_iff _ _).1 i6
        split at h
        · next l =>
          have g3 := (loadListField_some _ _ _ _ _).1 hx
          rw [hP] at g3
          rw [hdisc] at h
          exact .segment d disc _ l _ _ e g6 g1 g2 g3 g4 g5 h
        · next hno =>
          cases h
          have := (missingOr_list DataElement.load _ DataElement.load_iff py!"data_elements" d).1 ⟨x, hx, i3⟩
          rcases this with h | ⟨l, h⟩
          · exact .noDataElements d disc _ _ _ g6 g1 g2 h g4 g5
          · rw [← hP] at h
            have := (loadListField_some {} _ _ _ _).2 h
            rw [hx] at this
            cases this
            exact absurd rfl (hno l)
    · intro h
      refine ⟨?_, h.ne⟩
      cases h with
      | segment _ disc x l sec sid _ keys f1 f2 f3 f4 f5 raises =>
        obtain ⟨a1, b1⟩ := (strField_given d _ _).2 ⟨_, rfl, f1⟩
        obtain ⟨a2, b2⟩ := (strField_requiredOrNull d _ _).2 f2
        obtain ⟨a4, b4⟩ := (strField_givenOrDefault d _ _).2 f4
        obtain ⟨a5, b5⟩ := (strField_allowNone d _ _).2 f5
        rw [← hP] at f3
        refine ⟨_, (loadListField_some {} _ _ _ _).2 f3, ?_⟩
        dsimp only
        rw [a1, a2, a4, a5, (hasUnknown_iff _ _).2 keys, b1, b2, b4, b5]
        exact raises
      | noDataElements _ disc x sec sid keys f1 f2 f3 f4 f5 =>
        obtain ⟨a1, b1⟩ := (strField_given d _ _).2 ⟨_, rfl, f1⟩
        obtain ⟨a2, b2⟩ := (strField_requiredOrNull d _ _).2 f2
        obtain ⟨a4, b4⟩ := (strField_givenOrDefault d _ _).2 f4
        obtain ⟨a5, b5⟩ := (strField_allowNone d _ _).2 f5
        refine ⟨.missing, ?_, ?_⟩
        · unfold loadListField
          rw [f3]
          rfl
        · dsimp only
          rw [a1, a2, a4, a5, (hasUnknown_iff _ _).2 keys]
          rfl
  | _ =>
    refine raises_nonObject rfl ?_ e
    intro p hp e h
    simp only [arrayAt, List.flatMap_nil, List.nil_append, List.mem_singleton] at hp
    subst hp
    cases h

theorem attach_flatMap {α β : Type} (l : List α) (f : α → List β) : (l.attach.flatMap fun i => f i.1) = l.flatMap f := by
  rw [List.flatMap_subtype (g := f) (by intros; rfl), List.unattach_attach]

theorem groupParts_eq (j : Json) : groupParts j =
    (arrayAt py!"segments" j).flatMap segmentParts ++ (arrayAt py!"segment_groups" j).flatMap groupParts ++ [.group j] := by
  rw [groupParts, attach_flatMap]

theorem hierarchyParts_eq (j : Json) : hierarchyParts j =
    (arrayAt py!"sub_hierarchy" j).flatMap hierarchyParts ++ [.hierarchy j] := by
  rw [hierarchyParts, attach_flatMap]

theorem SegmentGroup.raises_lt : ∀ (n : Nat) (j : Json), sizeOf j < n → RaisesFirst SegmentGroup.load groupParts j := by
  intro n
  induction n with
  | zero => intro j h; omega
  | succ n ih =>
    intro j hn e
    rw [groupParts_eq]
    cases j with
    | obj d =>
      rw [SegmentGroup.load, SegmentGroup.loadGroupsField_eq]
      have hP : (fun j a => Segment.load j = .ok a) = DescribesSegment := by
        funext j a; exact propext (Segment.load_iff j a)
      have hG : (fun j a => SegmentGroup.load j = .ok a) = DescribesGroup := by
        funext j a; exact propext (SegmentGroup.load_iff j a)
      refine raises_stages (loadListField_error { defaultNone := true } Segment.load _ py!"segments" d (fun j _ => Segment.raises j))
        (loadListField_error { defaultNone := true } SegmentGroup.load _ py!"segment_groups" d
          (fun i hi => ih i (by have := arrayAt_lt _ _ _ hi; omega))) ?_ e
      intro e
      constructor
      · rintro ⟨⟨segs, gs, hp, hq, h⟩, hne⟩
        split at h
        · cases h; exact absurd rfl hne
        · next hi =>
          simp only [Bool.or_eq_true, not_or, Bool.not_eq_true] at hi
          obtain ⟨⟨⟨⟨i1, i2⟩, i3⟩, i4⟩, i5⟩ := hi
          obtain ⟨disc, hdisc, g1⟩ := (strField_given d _ _).1 ⟨i1, rfl⟩
          rw [hdisc] at h
          cases segs with
          | missing => exact absurd hp (loadListField_not_missing _ _ _ _ (.inr rfl))
          | invalid => cases i3
          | value l =>
            cases gs with
            | missing => exact absurd hq (loadListField_not_missing _ _ _ _ (.inr rfl))
            | invalid => cases i4
            | value l' =>
              have g3 := (SegmentGroup.optionalList _ _ _ _).1 hp
              have g4 := (SegmentGroup.optionalList _ _ _ _).1 hq
              rw [hP] at g3
              rw [hG] at g4
              exact .group d disc _ l l' e ((hasUnknown_iff _ _).1 i5) g1 ((strField_requiredOrNull d _ _).1 ⟨i2, rfl⟩) g3 g4 h
      · intro h
        refine ⟨?_, h.ne⟩
        cases h with
        | group _ disc x segs gs _ keys f1 f2 f3 f4 raises =>
          obtain ⟨a1, b1⟩ := (strField_given d _ _).2 ⟨_, rfl, f1⟩
          obtain ⟨a2, b2⟩ := (strField_requiredOrNull d _ _).2 f2
          rw [← hP] at f3
          rw [← hG] at f4
          refine ⟨_, _, (SegmentGroup.optionalList _ _ d _).2 f3, (SegmentGroup.optionalList _ _ d _).2 f4, ?_⟩
          have a5 : hasUnknown SegmentGroup.keys d = false := (hasUnknown_iff _ _).2 keys
          rw [a1, a2, a5, b1, b2]
          exact raises
    | _ =>
      refine raises_nonObject (by rw [SegmentGroup.load]; intro d h; cases h) ?_ e
      intro p hp e h
      simp only [arrayAt, List.flatMap_nil, List.nil_append, List.mem_singleton] at hp
      subst hp
      cases h

theorem SegmentGroup.raises (j : Json) : RaisesFirst SegmentGroup.load groupParts j :=
  SegmentGroup.raises_lt _ j (Nat.lt_succ_self _)

theorem DeepAhb.raises (j : Json) : RaisesFirst DeepAhb.load deepParts j := by
  refine loadHandbook_raises SegmentGroup.load (fun m l => .ok ({ ahbMeta := m, lines := l } : DeepAhb)) DescribesGroup SegmentGroup.load_iff
    groupParts .deep SegmentGroup.raises (by rintro m l ⟨⟩) ?_ j
  intro j e
  constructor
  · intro h
    cases h with
    | deepIncomplete d keys f1 f2 h => exact ⟨d, rfl, keys, .inr ⟨rfl, f1, f2, h⟩⟩
  · rintro ⟨d, rfl, keys, ⟨m, l, f1, f2, raises⟩ | ⟨rfl, f1, f2, h⟩⟩
    · cases raises
    · exact .deepIncomplete d keys f1 f2 h

/-! ## hierarchies -/

theorem Sgh.raises_lt : ∀ (n : Nat) (j : Json), sizeOf j < n → RaisesFirst Sgh.load hierarchyParts j := by
  intro n
  induction n with
  | zero => intro j h; omega
  | succ n ih =>
    intro j hn e
    rw [hierarchyParts_eq]
    cases j with
    | obj d =>
      rw [Sgh.load, Sgh.loadSubField_eq]
      refine raises_stage (loadListField_error { allowNone := true } Sgh.load _ py!"sub_hierarchy" d
          (fun i hi => ih i (by have := arrayAt_lt _ _ _ hi; omega))) ?_ e
      intro e
      constructor
      · rintro ⟨⟨x, hx, h⟩, hne⟩
        split at h
        · cases h; exact absurd rfl hne
        · next hi =>
          simp only [Bool.or_eq_true, not_or, Bool.not_eq_true] at hi
          obtain ⟨⟨⟨i1, i2⟩, i3⟩, i4⟩ := hi
          obtain ⟨o, ho, g2⟩ := (strField_given d _ _).1 ⟨i2, rfl⟩
          split at h
          · cases h
          · next hno =>
            cases h
            refine .noSubHierarchy d _ o ((hasUnknown_iff _ _).1 i4) ((strField_requiredOrNull d _ _).1 ⟨i1, rfl⟩) g2 ?_
            cases x with
            | value a => exact absurd rfl (hno a)
            | invalid => cases i3
            | missing =>
              unfold loadListField at hx
              split at hx
              · assumption
              · cases hx
              · unfold loadedItems at hx
                cases hl : loadItems Sgh.load (by assumption) with
                | error e => simp [hl, Bind.bind, Except.bind] at hx
                | ok r => cases r <;> simp [hl, Bind.bind, Except.bind, pure, Except.pure] at hx
              · cases hx
      · intro h
        refine ⟨?_, h.ne⟩
        cases h with
        | noSubHierarchy _ key opening keys f1 f2 f3 =>
          obtain ⟨a1, b1⟩ := (strField_requiredOrNull d _ _).2 f1
          obtain ⟨a2, b2⟩ := (strField_given d _ _).2 ⟨_, rfl, f2⟩
          refine ⟨.missing, ?_, ?_⟩
          · unfold loadListField
            rw [f3]
            rfl
          · rw [a1, a2, (hasUnknown_iff _ _).2 keys]
            rfl
    | _ =>
      refine raises_nonObject (by rw [Sgh.load]; intro d h; cases h) ?_ e
      intro p hp e h
      simp only [arrayAt, List.flatMap_nil, List.nil_append, List.mem_singleton] at hp
      subst hp
      cases h

theorem Sgh.raises (j : Json) : RaisesFirst Sgh.load hierarchyParts j := Sgh.raises_lt _ j (Nat.lt_succ_self _)

/-- what is left is the `ValidationError` -/
theorem RaisesFirst.validationError {α : Type} {load : Json → PyRes α} {parts : Json → List Part} {P : Json → α → Prop}
    (h : ∀ j, RaisesFirst load parts j) (hP : ∀ j a, load j = .ok a ↔ P j a) (j : Json) :
    load j = .error .validationError ↔ (∀ a, ¬ P j a) ∧ NoneRefused (parts j) := by
  rw [noneRefused_iff]
  simp only [← hP, ← h j _]
  cases load j with
  | ok a => simp
  | error e =>
    constructor
    · intro h
      cases h
      exact ⟨by simp, fun e ⟨h, h'⟩ => by cases h; exact h' rfl⟩
    · rintro ⟨_, h⟩
      by_cases hv : e = .validationError
      · rw [hv]
      · exact absurd ⟨rfl, hv⟩ (h e)

end Verif
