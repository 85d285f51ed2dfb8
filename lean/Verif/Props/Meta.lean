import Verif.Proofs.Meta
import Verif.Proofs.Csv
/-!
# Properties C54, C55 and C65: divisions, EDIFACT metadata and boilerplate segments
-/

namespace Verif

/-! ## C54 divisions -/

/-- **C54** the division is GAS iff "gas" is written somewhere in the name, in capital or small letters; ELECTRICITY iff
"strom" is and "gas" is not; `None` for `None` and for all other names. -/
theorem C54_division (name : Option PyStr) :
    (getDivision name = some .gas ↔ ∃ s, name = some s ∧ Spells py!"gas" s) ∧
    (getDivision name = some .electricity ↔ ∃ s, name = some s ∧ Spells py!"strom" s ∧ ¬ Spells py!"gas" s) ∧
    (getDivision name = none ↔ ∀ s, name = some s → ¬ Spells py!"gas" s ∧ ¬ Spells py!"strom" s) := by
  cases name with
  | none => simp [getDivision]
  | some s =>
    simp only [getDivision, Option.some.injEq, exists_eq_left', forall_eq', isGasName_eq, isElectricityName_eq,
      ← contains_gas, ← contains_strom]
    cases s with
    | nil => decide
    | cons c s =>
      cases contains py!"gas" (lower (c :: s)) <;> cases contains py!"strom" (lower (c :: s)) <;> simp

/-- **C54** "gas" and "strom" are looked for in Python's lower-cased name. -/
theorem C54_lower (word : PyStr) (h : word = py!"gas" ∨ word = py!"strom") (s : PyStr) :
    Spells word s ↔ word <:+: lower s := by
  rcases h with rfl | rfl
  · rw [← contains_gas, contains_iff]
  · rw [← contains_strom, contains_iff]

/-- **C54** `is_gas_name` and `is_electricity_name`: `True` iff the own word is written in the name, `False` iff only the
other one is, `None` iff neither is. -/
theorem C54_names (s : PyStr) :
    (isGasName s false = some true ↔ Spells py!"gas" s) ∧
    (isGasName s false = some false ↔ ¬ Spells py!"gas" s ∧ Spells py!"strom" s) ∧
    (isElectricityName s false = some true ↔ Spells py!"strom" s) ∧
    (isElectricityName s false = some false ↔ ¬ Spells py!"strom" s ∧ Spells py!"gas" s) := by
  simp only [isGasName_eq, isElectricityName_eq, ← contains_gas, ← contains_strom]
  cases contains py!"gas" (lower s) <;> cases contains py!"strom" (lower s) <;> simp

/-- **C54** they are never both `False`. -/
theorem C54_not_both_false (s : PyStr) : ¬ (isGasName s false = some false ∧ isElectricityName s false = some false) := by
  rintro ⟨h1, h2⟩
  exact ((C54_names s).2.1.1 h1).1 ((C54_names s).2.2.2.1 h2).2

/-- a gas name, a name with both words, an electricity name, and a name that belongs to neither -/
example : getDivision (some py!"Zuordnung ERDGAS") = some .gas :=
  (C54_division _).1.2 ⟨_, rfl, py!"Zuordnung ERD", py!"GAS", [], rfl, by decide⟩
example : getDivision (some py!"Stromgas") = some .gas :=
  (C54_division _).1.2 ⟨_, rfl, py!"Strom", py!"gas", [], rfl, by decide⟩
example : getDivision (some py!"Strom") = some .electricity := by
  simp only [getDivision, isGasName_eq, isElectricityName_eq]; decide +kernel
example : getDivision (some py!"Wasser") = none := by
  simp only [getDivision, isGasName_eq, isElectricityName_eq]; decide +kernel

/-! ## C55 EDIFACT metadata -/

variable {F V : Type} [DecidableEq F]

/-- **C55** every constructed `EdiMetaData` has a five-digit Prüfidentifikator without leading zero and the format that
belongs to it, whether the format is given or not. -/
theorem C55_consistent (lookup : Arg PyStr → PyRes F) (pruefi : Arg PyStr) (format : Option (Arg F)) (version : Arg V)
    (m : EdiMetaData F V) (h : mkEdiMetaData lookup pruefi format version = .ok m) :
    IsPruefi m.pruefidentifikator ∧ lookup (.inst m.pruefidentifikator) = .ok m.edifactFormat := by
  unfold mkEdiMetaData at h
  have key : ∀ fmt : Arg F, ∀ m : EdiMetaData F V, (do
      let p ← instanceOf pruefi
      if (pruefidentifikatorRe.fullMatch p).isSome then pure () else .error .valueError
      checkPruefiAndFormat lookup fmt p
      let f ← instanceOf fmt
      let v ← instanceOf version
      pure { pruefidentifikator := p, edifactFormat := f, edifactFormatVersion := v } : PyRes (EdiMetaData F V)) = .ok m →
      IsPruefi m.pruefidentifikator ∧ lookup (.inst m.pruefidentifikator) = .ok m.edifactFormat := by
    intro fmt m h
    cases pruefi with
    | other => cases h
    | inst p =>
      simp only [instanceOf, Except.bind, bind] at h
      by_cases hp : (pruefidentifikatorRe.fullMatch p).isSome
      · simp only [hp, if_true, pure, Except.pure, checkPruefiAndFormat, bind, Except.bind] at h
        cases hl : lookup (.inst p) with
        | error e => rw [hl] at h; cases h
        | ok f' =>
          rw [hl] at h
          simp only at h
          cases fmt with
          | other g =>
            cases hg : g f' <;> simp only [Arg.eqVal, hg] at h <;> cases h
          | inst f =>
            by_cases hf : f = f'
            · cases version with
              | other => simp [Arg.eqVal, hf] at h
              | inst v =>
                simp only [Arg.eqVal, hf, decide_true, if_true] at h
                cases h
                exact ⟨(pruefi_iff p).1 hp, by rw [hl]⟩
            · simp [Arg.eqVal, hf] at h
      · simp [hp] at h
  cases format with
  | some f => exact key f m h
  | none =>
    cases hl : lookup pruefi with
    | error e => rw [hl] at h; cases h
    | ok f => rw [hl] at h; exact key (.inst f) m h

/-- **C55** exactly when it can be constructed: a string that is a Prüfidentifikator with a known format, no or the right
format, and a format version. -/
theorem C55_constructible_iff (lookup : Arg PyStr → PyRes F) (pruefi : Arg PyStr) (format : Option (Arg F)) (version : Arg V)
    (m : EdiMetaData F V) :
    mkEdiMetaData lookup pruefi format version = .ok m ↔
      pruefi = .inst m.pruefidentifikator ∧ IsPruefi m.pruefidentifikator ∧
      lookup (.inst m.pruefidentifikator) = .ok m.edifactFormat ∧
      (format = none ∨ format = some (.inst m.edifactFormat)) ∧ version = .inst m.edifactFormatVersion := by
  constructor
  · intro h
    obtain ⟨h1, h2⟩ := C55_consistent lookup pruefi format version m h
    have key : ∀ fmt : Arg F, ∀ m : EdiMetaData F V, (do
        let p ← instanceOf pruefi
        if (pruefidentifikatorRe.fullMatch p).isSome then pure () else .error .valueError
        checkPruefiAndFormat lookup fmt p
        let f ← instanceOf fmt
        let v ← instanceOf version
        pure { pruefidentifikator := p, edifactFormat := f, edifactFormatVersion := v } : PyRes (EdiMetaData F V)) = .ok m →
        pruefi = .inst m.pruefidentifikator ∧ fmt = .inst m.edifactFormat ∧ version = .inst m.edifactFormatVersion := by
      intro fmt m h
      cases pruefi with
      | other => cases h
      | inst p =>
        simp only [instanceOf, Except.bind, bind] at h
        split at h
        · simp only [pure, Except.pure] at h
          cases hc : checkPruefiAndFormat lookup fmt p with
          | error => rw [hc] at h; cases h
          | ok =>
            rw [hc] at h
            cases fmt with
            | other => cases h
            | inst f =>
              cases version with
              | other => cases h
              | inst v => cases h; exact ⟨rfl, rfl, rfl⟩
        · cases h
    unfold mkEdiMetaData at h
    cases format with
    | some f =>
      obtain ⟨h3, h4, h5⟩ := key f m h
      exact ⟨h3, h1, h2, .inr (by rw [h4]), h5⟩
    | none =>
      cases hl : lookup pruefi with
      | error e => rw [hl] at h; cases h
      | ok f =>
        rw [hl] at h
        obtain ⟨h3, _, h5⟩ := key (.inst f) m h
        exact ⟨h3, h1, h2, .inl rfl, h5⟩
  · rintro ⟨h1, h2, h3, h4, h5⟩
    have h2' := (pruefi_iff _).2 h2
    rcases h4 with h4 | h4 <;> subst h4 <;> subst h1 <;> subst h5 <;>
      simp [mkEdiMetaData, instanceOf, checkPruefiAndFormat, h2', h3, Arg.eqVal, bind, Except.bind, pure, Except.pure, Except.map]

/-- **C55** without a format, construction never fails for a Prüfidentifikator whose format is known. -/
theorem C55_default_format (lookup : Arg PyStr → PyRes F) (p : PyStr) (hp : IsPruefi p) (f : F) (hl : lookup (.inst p) = .ok f)
    (v : V) : mkEdiMetaData lookup (.inst p) none (.inst v) =
      .ok { pruefidentifikator := p, edifactFormat := f, edifactFormatVersion := v } :=
  (C55_constructible_iff lookup _ _ _ _).2 ⟨rfl, hp, hl, .inl rfl, rfl⟩

/-- **C55** otherwise the exception is that of the first reason. -/
theorem C55_exceptions (lookup : Arg PyStr → PyRes F) (pruefi : Arg PyStr) (format : Option (Arg F)) (version : Arg V) (e : Exc) :
    mkEdiMetaData lookup pruefi format version = .error e ↔ MetaFailure lookup pruefi format version e := by
  constructor
  · intro h
    unfold mkEdiMetaData at h
    cases format with
    | none =>
      cases hl : lookup pruefi with
      | error e' =>
        rw [hl] at h
        cases h
        exact .noDefault rfl hl
      | ok f =>
        rw [hl] at h
        cases pruefi with
        | other eq => cases h; exact .noText (fun _ => ⟨_, hl⟩) rfl
        | inst p =>
          by_cases hp : IsPruefi p
          · have hp' := (pruefi_iff p).2 hp
            cases version with
            | inst v =>
              simp [instanceOf, checkPruefiAndFormat, hp', hl, Arg.eqVal, bind, Except.bind, pure, Except.pure, Except.map] at h
            | other eq =>
              simp [instanceOf, checkPruefiAndFormat, hp', hl, Arg.eqVal, bind, Except.bind, pure, Except.pure, Except.map] at h
              subst h
              exact .noVersion (.inl rfl) rfl hp hl rfl
          · have hp' : (pruefidentifikatorRe.fullMatch p).isSome = false := by
              rw [← Bool.not_eq_true, pruefi_iff]; exact hp
            simp [instanceOf, hp', bind, Except.bind, Except.map] at h
            subst h
            exact .noPruefi (fun _ => ⟨_, hl⟩) rfl hp
    | some g =>
      cases pruefi with
      | other eq => cases h; exact .noText (fun hn => by cases hn) rfl
      | inst p =>
        by_cases hp : IsPruefi p
        · have hp' := (pruefi_iff p).2 hp
          cases hl : lookup (.inst p) with
          | error e' =>
            simp [instanceOf, checkPruefiAndFormat, hp', hl, bind, Except.bind, pure, Except.pure] at h
            subst h
            exact .unknown rfl rfl hp hl
          | ok f =>
            cases g with
            | inst f' =>
              by_cases hf : f' = f
              · subst hf
                cases version with
                | inst v =>
                  simp [instanceOf, checkPruefiAndFormat, hp', hl, Arg.eqVal, bind, Except.bind, pure, Except.pure] at h
                | other eq =>
                  simp [instanceOf, checkPruefiAndFormat, hp', hl, Arg.eqVal, bind, Except.bind, pure, Except.pure] at h
                  subst h
                  exact .noVersion (.inr rfl) rfl hp hl rfl
              · simp [instanceOf, checkPruefiAndFormat, hp', hl, Arg.eqVal, bind, Except.bind, pure, Except.pure, hf] at h
                subst h
                exact .otherFormat rfl rfl hp hl hf
            | other eq =>
              have hh : e = if eq f = true then .typeError else .valueError := by
                by_cases hf : eq f = true
                · simp [instanceOf, checkPruefiAndFormat, hp', hl, Arg.eqVal, bind, Except.bind, pure, Except.pure, hf] at h
                  simp [hf, h]
                · simp [instanceOf, checkPruefiAndFormat, hp', hl, Arg.eqVal, bind, Except.bind, pure, Except.pure, hf] at h
                  simp [hf, h]
              rw [hh]
              exact .foreignFormat rfl rfl hp hl
        · have hp' : (pruefidentifikatorRe.fullMatch p).isSome = false := by
            rw [← Bool.not_eq_true, pruefi_iff]; exact hp
          simp [instanceOf, hp', bind, Except.bind, pure, Except.pure] at h
          subst h
          exact .noPruefi (fun hn => by cases hn) rfl hp
  · have hno : ∀ {p : PyStr}, ¬ IsPruefi p → (pruefidentifikatorRe.fullMatch p).isSome = false := fun {p} hp => by
      rw [← Bool.not_eq_true, pruefi_iff]; exact hp
    intro h
    unfold mkEdiMetaData
    cases h with
    | noDefault hf h => subst hf; rw [h]; rfl
    | noText hf h =>
      subst h
      cases format with
      | none => obtain ⟨f, hl⟩ := hf rfl; rw [hl]; rfl
      | some g => rfl
    | noPruefi hf hp h =>
      subst hp
      cases format with
      | none =>
        obtain ⟨f, hl⟩ := hf rfl
        simp [instanceOf, hno h, hl, bind, Except.bind, Except.map]
      | some g => simp [instanceOf, hno h, bind, Except.bind, pure, Except.pure]
    | unknown hf hp h hl =>
      subst hf hp
      simp [instanceOf, checkPruefiAndFormat, (pruefi_iff _).2 h, hl, bind, Except.bind, pure, Except.pure]
    | otherFormat hf hp h hl hne =>
      subst hf hp
      simp [instanceOf, checkPruefiAndFormat, (pruefi_iff _).2 h, hl, Arg.eqVal, hne, bind, Except.bind, pure, Except.pure]
    | @foreignFormat p f eq hf hp h hl =>
      subst hf hp
      by_cases hf : eq f = true <;>
        simp [instanceOf, checkPruefiAndFormat, (pruefi_iff _).2 h, hl, Arg.eqVal, hf, bind, Except.bind, pure, Except.pure]
    | noVersion hf hp h hl hv =>
      subst hp hv
      rcases hf with rfl | rfl <;>
        simp [instanceOf, checkPruefiAndFormat, (pruefi_iff _).2 h, hl, Arg.eqVal, bind, Except.bind, pure, Except.pure, Except.map]

/-- a lookup that knows one Prüfidentifikator (format 7): consistent metadata, a wrong format, a leading zero, a string that
is equal to the format but no format -/
def sampleLookup : Arg PyStr → PyRes Nat
  | .inst s => if s.take 2 = py!"11" ∨ s.take 2 = py!"01" then .ok 7 else .error .valueError
  | .other _ => .error .typeError

example : mkEdiMetaData sampleLookup (.inst py!"11042") none (.inst 2210) =
    .ok { pruefidentifikator := py!"11042", edifactFormat := 7, edifactFormatVersion := 2210 } :=
  C55_default_format _ _ ⟨_, _, _, _, _, rfl, by decide, by decide +kernel⟩ 7 (by decide) 2210
example : mkEdiMetaData sampleLookup (.inst py!"11042") (some (.inst 8)) (.inst 2210) = .error .valueError := by decide +kernel
example : mkEdiMetaData sampleLookup (.inst py!"01042") none (.inst 2210) = .error .valueError := by decide +kernel
example : mkEdiMetaData sampleLookup (.inst py!"11042\n") none (.inst 2210) = .error .valueError := by decide +kernel
example : mkEdiMetaData sampleLookup (.inst py!"11042") (some (.other fun _ => true)) (.inst 2210) = .error .typeError := by
  decide +kernel
example : mkEdiMetaData sampleLookup (.inst py!"11042") (some (.other fun _ => false)) (.inst 2210) = .error .valueError :=
  (C55_exceptions _ _ _ _ _).2 (.foreignFormat rfl rfl ⟨_, _, _, _, _, rfl, by decide, by decide +kernel⟩ (f := 7) rfl)

/-! ## C65 boilerplate segments -/

theorem mem_takeWhile_true {α : Type} {p : α → Bool} {l : List α} {c : α} (h : c ∈ l.takeWhile p) : p c = true :=
  List.all_eq_true.1 List.all_takeWhile c h

theorem strip_padded {w : PyStr} (hne : w ≠ []) (hw : ∀ c ∈ w, isSpace c = false) (s : PyStr) : strip s = w ↔ Padded w s := by
  constructor
  · rintro rfl
    have h1 : s = s.takeWhile isSpace ++ lstrip s := (List.takeWhile_append_dropWhile).symm
    have h2 : lstrip s = strip s ++ ((lstrip s).reverse.takeWhile isSpace).reverse := by
      have := congrArg List.reverse ((List.takeWhile_append_dropWhile (p := isSpace) (l := (lstrip s).reverse)))
      rw [List.reverse_append, List.reverse_reverse] at this
      exact this.symm
    refine ⟨s.takeWhile isSpace, ((lstrip s).reverse.takeWhile isSpace).reverse, ?_, fun c hc => mem_whiteSpace.2 (mem_takeWhile_true hc),
      fun c hc => mem_whiteSpace.2 (mem_takeWhile_true (List.mem_reverse.1 hc))⟩
    rw [List.append_assoc, ← h2, ← h1]
  · rintro ⟨a, b, rfl, ha, hb⟩
    have hl : lstrip (a ++ w ++ b) = w ++ b := by
      unfold lstrip
      rw [List.append_assoc, List.dropWhile_append_of_pos (fun c hc => mem_whiteSpace.1 (ha c hc))]
      cases w with
      | nil => exact absurd rfl hne
      | cons c w => rw [List.cons_append, List.dropWhile_cons_of_neg (by simp [hw c (by simp)])]
    unfold strip
    rw [hl]
    unfold rstrip
    rw [List.reverse_append, List.dropWhile_append_of_pos (fun c hc => mem_whiteSpace.1 (hb c (List.mem_reverse.1 hc)))]
    have : (w.reverse.dropWhile isSpace) = w.reverse := by
      cases hr : w.reverse with
      | nil => rfl
      | cons c r =>
        rw [List.dropWhile_cons_of_neg]
        rw [hw c (List.mem_reverse.1 (by rw [hr]; simp))]
        simp
    rw [this, List.reverse_reverse]

/-- **C65** a segment is boilerplate iff it has no code, or the code is UNT or UNZ, up to white space around it. -/
theorem C65_boilerplate (code : Option PyStr) :
    isEdifactBoilerplate code = true ↔ ∀ s, code = some s → s = [] ∨ Padded py!"UNT" s ∨ Padded py!"UNZ" s := by
  cases code with
  | none => simp [isEdifactBoilerplate]
  | some s =>
    simp only [isEdifactBoilerplate, Option.some.injEq, forall_eq']
    rw [← strip_padded (by simp) (by decide), ← strip_padded (by simp) (by decide)]
    cases s with
    | nil => simp
    | cons c s => simp

example : isEdifactBoilerplate (some py!" UNT") = true :=
  (C65_boilerplate _).2 (by rintro _ ⟨⟩; exact .inr (.inl ⟨[' '], [], rfl, by decide, by simp⟩))
example : isEdifactBoilerplate (some py!"UNH") = false := by decide
/-- a code of white space only is not boilerplate -/
example : isEdifactBoilerplate (some py!" ") = false := by decide

end Verif
