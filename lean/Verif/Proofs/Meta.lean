import Verif.Model.Meta
import Verif.Spec.Meta
import Verif.Proofs.Names
import Verif.Proofs.RegexLang
/-!
# Lemmas about names of divisions and Prüfidentifikatoren
-/

namespace Verif

theorem contains_iff (sub s : PyStr) : contains sub s = true ↔ sub <:+: s := by
  induction s with
  | nil =>
    simp [contains]
  | cons c s ih =>
    rw [contains, Bool.or_eq_true, ih, List.isPrefixOf_iff_prefix, List.infix_cons_iff]

/-- what a character becomes -/
def lowerChunk (before : PyStr) (c : Char) (s : PyStr) : PyStr :=
  if c.toNat = 0x3A3 then (if startsCased before && !startsCased s then [Char.ofNat 0x3C2] else [Char.ofNat 0x3C3])
  else lowerChar c

theorem lowerAux_cons (before : PyStr) (c : Char) (s : PyStr) :
    lowerAux before (c :: s) = lowerChunk before c s ++ lowerAux (c :: before) s := rfl

/-- the letters a to z without i and k: no character but the capital letter becomes one of them -/
def PlainLetter (d : Char) : Prop := 97 ≤ d.toNat ∧ d.toNat ≤ 122 ∧ d.toNat ≠ 105 ∧ d.toNat ≠ 107

theorem lowerMap_ascii : lowerMap.all (fun e => decide (e = (65, 90, 1, 32)) || decide ((e.2.1 : Int) + e.2.2.2 < 97) ||
    decide ((122 : Int) < e.1 + e.2.2.2) || (decide (e.1 = e.2.1) && decide ((e.1 : Int) + e.2.2.2 = 107))) = true := by
  decide +kernel

theorem toLower_capital : ∀ n < 91, 65 ≤ n → (Char.ofNat n).toLower = Char.ofNat (n + 32) := by decide

theorem toLower_small (d : Char) (h : 97 ≤ d.toNat) : d.toLower = d := by
  unfold Char.toLower
  simp only [ge_iff_le]
  split
  · rename_i h1
    exfalso
    have h2 := h1.2
    have h3 : d.val.toNat ≤ 90 := h2
    have h4 : d.toNat = d.val.toNat := rfl
    omega
  · rfl

theorem lowerChar_plain {c d : Char} (hd : d ∈ lowerChar c) (h : PlainLetter d) : lowerChar c = [d] ∧ c.toLower = d := by
  rw [lowerChar_def] at hd ⊢
  split at hd
  · exfalso
    have : ∀ d ∈ [Char.ofNat 0x69, Char.ofNat 0x307], d.toNat = 105 ∨ 122 < d.toNat := by decide
    obtain ⟨h1, h2, h3, h4⟩ := h
    rcases this d hd with h5 | h5 <;> omega
  · rename_i h0
    rw [if_neg h0]
    cases hf : lowerMap.find? (inEntry c.toNat) with
    | none =>
      rw [hf, List.mem_singleton] at hd
      subst hd
      exact ⟨rfl, toLower_small d h.1⟩
    | some e =>
      rw [hf, List.mem_singleton] at hd
      simp only
      refine ⟨by rw [hd], ?_⟩
      have he := List.mem_of_find?_eq_some hf
      obtain ⟨h1, h2, h3⟩ := (inEntry_iff _ _).1 (List.find?_some hf)
      have hval := List.all_eq_true.1 lowerMap_valid e he
      simp only [Bool.and_eq_true, Bool.or_eq_true, decide_eq_true_eq] at hval
      have hm : (((c.toNat : Int) + e.2.2.2).toNat : Int) = c.toNat + e.2.2.2 := Int.toNat_of_nonneg (by omega)
      have ht : d.toNat = ((c.toNat : Int) + e.2.2.2).toNat := by
        rw [hd]
        apply toNat_ofNat
        rcases hval.2 with h | ⟨h, h'⟩
        · exact .inl (by omega)
        · exact .inr ⟨by omega, by omega⟩
      have ha := List.all_eq_true.1 lowerMap_ascii e he
      simp only [Bool.and_eq_true, Bool.or_eq_true, decide_eq_true_eq] at ha
      obtain ⟨g1, g2, g3, g4⟩ := h
      rcases ha with ((ha | ha) | ha) | ⟨ha, ha'⟩
      · subst ha
        simp only at h1 h2 hd
        have := toLower_capital c.toNat (by omega) h1
        rw [Char.ofNat_toNat] at this
        rw [this, hd]
        rfl
      · omega
      · omega
      · omega

theorem lowerChunk_plain {before : PyStr} {c : Char} {s : PyStr} {d : Char} (hd : d ∈ lowerChunk before c s) (h : PlainLetter d) :
    lowerChunk before c s = [d] ∧ c.toLower = d := by
  unfold lowerChunk at hd ⊢
  split at hd
  · exfalso
    have : ∀ d ∈ [Char.ofNat 0x3C2, Char.ofNat 0x3C3], 122 < d.toNat := by decide
    have h5 : 122 < d.toNat := by
      apply this
      split at hd
      · simp only [List.mem_singleton] at hd; simp [hd]
      · simp only [List.mem_singleton] at hd; simp [hd]
    obtain ⟨h1, h2, h3, h4⟩ := h
    omega
  · rename_i h0
    rw [if_neg h0]
    exact lowerChar_plain hd h

/-- the converse: a letter and its capital letter -/
theorem lowerChunk_of_letter (before : PyStr) (c : Char) (s : PyStr) (h : PlainLetter c.toLower) :
    lowerChunk before c s = [c.toLower] := by
  have hc : c.toNat < 123 := by
    by_contra hlt
    rw [toLower_small c (by omega)] at h
    exact hlt (by have := h.2.1; omega)
  have key : ∀ n < 123, (97 ≤ (Char.ofNat n).toLower.toNat) → lowerChar (Char.ofNat n) = [(Char.ofNat n).toLower] := by
    decide +kernel
  have := key c.toNat hc (by rw [Char.ofNat_toNat]; exact h.1)
  rw [Char.ofNat_toNat] at this
  unfold lowerChunk
  rw [if_neg (by omega), this]

theorem lowerAux_prefix (word : PyStr) (hw : ∀ d ∈ word, PlainLetter d) (before s : PyStr) :
    word <+: lowerAux before s ↔ ∃ w, w <+: s ∧ w.map Char.toLower = word := by
  induction word generalizing before s with
  | nil => exact ⟨fun _ => ⟨[], List.nil_prefix, rfl⟩, fun _ => List.nil_prefix⟩
  | cons d word ih =>
    have hd : PlainLetter d := hw d (by simp)
    cases s with
    | nil => simp [lowerAux]
    | cons c s =>
      rw [lowerAux_cons]
      constructor
      · intro h
        have hne : lowerChunk before c s ≠ [] := by
          unfold lowerChunk
          split
          · split <;> simp
          · rw [lowerChar_def]
            split
            · simp
            · split <;> simp
        cases hk : lowerChunk before c s with
        | nil => exact absurd hk hne
        | cons d' k =>
          rw [hk, List.cons_append, List.cons_prefix_cons] at h
          obtain ⟨rfl, h⟩ := h
          obtain ⟨h1, h2⟩ := lowerChunk_plain (before := before) (s := s) (c := c) (by rw [hk]; simp) hd
          rw [hk, List.cons.injEq] at h1
          rw [h1.2, List.nil_append] at h
          obtain ⟨w, hw1, hw2⟩ := (ih (fun x hx => hw x (by simp [hx])) _ _).1 h
          exact ⟨c :: w, List.cons_prefix_cons.2 ⟨rfl, hw1⟩, by rw [List.map_cons, h2, hw2]⟩
      · rintro ⟨w, h1, h2⟩
        cases w with
        | nil => cases h2
        | cons c' w =>
          obtain ⟨rfl, h3⟩ := List.cons_prefix_cons.1 h1
          rw [List.map_cons, List.cons.injEq] at h2
          rw [lowerChunk_of_letter _ _ _ (by rw [h2.1]; exact hd), h2.1]
          exact List.cons_prefix_cons.2 ⟨rfl, (ih (fun x hx => hw x (by simp [hx])) _ _).2 ⟨w, h3, h2.2⟩⟩

theorem prefix_append_suffix {word a b : PyStr} (h : word <:+: a ++ b) :
    word <:+: b ∨ ∃ x y, a = x ++ y ∧ y ≠ [] ∧ word <+: y ++ b := by
  induction a with
  | nil => exact .inl h
  | cons c a ih =>
    rw [List.cons_append, List.infix_cons_iff] at h
    rcases h with h | h
    · exact .inr ⟨[], c :: a, rfl, by simp, h⟩
    · rcases ih h with h | ⟨x, y, rfl, h1, h2⟩
      · exact .inl h
      · exact .inr ⟨c :: x, y, rfl, h1, h2⟩

theorem lowerAux_infix (word : PyStr) (hne : word ≠ []) (hw : ∀ d ∈ word, PlainLetter d) (before s : PyStr) :
    word <:+: lowerAux before s ↔ Spells word s := by
  induction s generalizing before with
  | nil =>
    simp only [lowerAux, List.infix_nil, Spells]
    constructor
    · exact fun h => absurd h hne
    · rintro ⟨a, w, b, h1, h2⟩
      exfalso
      have : w = [] := by
        have := congrArg List.length h1
        simp at this
        exact List.length_eq_zero_iff.1 (by omega)
      rw [this] at h2
      exact hne h2.symm
  | cons c s ih =>
    rw [lowerAux_cons]
    constructor
    · intro h
      rcases prefix_append_suffix h with h | ⟨x, y, hxy, hy, h⟩
      · obtain ⟨a, w, b, h1, h2⟩ := (ih _).1 h
        exact ⟨c :: a, w, b, by rw [h1]; rfl, h2⟩
      · cases word with
        | nil => exact absurd rfl hne
        | cons d word =>
          cases y with
          | nil => exact absurd rfl hy
          | cons d' y =>
            have hd' : d = d' := (List.cons_prefix_cons.1 h).1
            subst hd'
            obtain ⟨h1, h2⟩ := lowerChunk_plain (before := before) (s := s) (c := c) (d := d)
              (by rw [hxy]; simp) (hw d (by simp))
            have hy' : y = [] ∧ x = [] := by
              rw [h1] at hxy
              have := congrArg List.length hxy
              simp at this
              exact ⟨List.length_eq_zero_iff.1 (by omega), List.length_eq_zero_iff.1 (by omega)⟩
            have hp : d :: word <+: lowerAux before (c :: s) := by
              rw [lowerAux_cons, h1]
              rw [hy'.1] at h
              exact h
            obtain ⟨w, ⟨b, h3⟩, h4⟩ := (lowerAux_prefix (d :: word) hw before (c :: s)).1 hp
            exact ⟨[], w, b, by rw [← h3]; rfl, h4⟩
    · rintro ⟨a, w, b, h1, h2⟩
      cases a with
      | nil =>
        have := (lowerAux_prefix word hw before (c :: s)).2 ⟨w, ⟨b, h1.symm⟩, h2⟩
        rw [lowerAux_cons] at this
        exact this.isInfix
      | cons c' a =>
        simp only [List.cons_append, List.cons.injEq] at h1
        exact ((ih _).2 ⟨a, w, b, h1.2, h2⟩).trans (List.suffix_append _ _).isInfix

theorem contains_lower (word : PyStr) (hne : word ≠ []) (hw : ∀ d ∈ word, PlainLetter d) (s : PyStr) :
    contains word (lower s) = true ↔ Spells word s := by
  rw [contains_iff]
  exact lowerAux_infix word hne hw [] s

instance instDecPlainLetter (d : Char) : Decidable (PlainLetter d) := inferInstanceAs (Decidable (_ ∧ _))

theorem contains_gas (s : PyStr) : contains py!"gas" (lower s) = true ↔ Spells py!"gas" s :=
  contains_lower _ (by simp) (by decide) s

theorem contains_strom (s : PyStr) : contains py!"strom" (lower s) = true ↔ Spells py!"strom" s :=
  contains_lower _ (by simp) (by decide) s

theorem isGasName_eq (s : PyStr) (r : Bool) : isGasName s r =
    if contains py!"gas" (lower s) then some true
    else if r = false ∧ contains py!"strom" (lower s) then some false else none := by
  rw [isGasName]
  split
  · rfl
  · cases r
    · simp only [dite_true, true_and]
      rw [isElectricityName]
      split
      · simp
      · simp
    · simp

theorem isElectricityName_eq (s : PyStr) (r : Bool) : isElectricityName s r =
    if contains py!"strom" (lower s) then some true
    else if r = false ∧ contains py!"gas" (lower s) then some false else none := by
  rw [isElectricityName]
  split
  · rfl
  · cases r
    · simp only [dite_true, true_and]
      rw [isGasName]
      split
      · simp
      · simp
    · simp

/-! ## Prüfidentifikatoren -/

theorem is19_iff (c : Char) : is19 c = true ↔ c ∈ py!"123456789" := by
  constructor
  · intro h
    simp only [is19, Bool.and_eq_true, decide_eq_true_eq] at h
    have key : ∀ n < 58, 49 ≤ n → Char.ofNat n ∈ py!"123456789" := by decide
    have := key c.toNat (by omega) h.1
    rwa [Char.ofNat_toNat] at this
  · revert c
    decide

theorem pruefi_iff (s : PyStr) : (pruefidentifikatorRe.fullMatch s).isSome = true ↔ IsPruefi s := by
  have hl := Re.run_lang (.seq (.cls is19) (.rep 4 (.cls isDigit))) ⟨trivial, trivial, trivial, trivial, trivial, trivial⟩
    { pos := 0, rest := s } []
  have hspec : Re.Lang (.seq (.cls is19) (.rep 4 (.cls isDigit))) s ↔ IsPruefi s := by
    simp only [Re.Lang, Re.lang_rep_cls, IsPruefi]
    constructor
    · rintro ⟨u, v, rfl, ⟨c, rfl, hc⟩, h1, h2⟩
      match v, h1, h2 with
      | [a1, a2, a3, a4], _, h2 => exact ⟨c, a1, a2, a3, a4, rfl, (is19_iff c).1 hc, h2⟩
    · rintro ⟨c, a1, a2, a3, a4, rfl, h1, h2⟩
      exact ⟨[c], [a1, a2, a3, a4], rfl, ⟨c, rfl, (is19_iff c).2 h1⟩, rfl, h2⟩
  rw [Re.fullMatch_isSome, ← hspec]
  simp only [pruefidentifikatorRe]
  constructor
  · rintro ⟨t, ht, hr⟩
    obtain ⟨u, hu, ht⟩ := Re.mem_seq.1 ht
    obtain ⟨_, rfl⟩ := Re.mem_bol.1 hu
    obtain ⟨v, hv, ht⟩ := Re.mem_seq.1 ht
    obtain ⟨w, hw, ht⟩ := Re.mem_seq.1 ht
    obtain ⟨_, rfl⟩ := Re.mem_eol.1 ht
    obtain ⟨x, h1, h2⟩ := hl.1 ⟨_, Re.mem_seq.2 ⟨v, hv, hw⟩, hr⟩
    have : s = x := by simpa using h1
    rw [this]; exact h2
  · intro h
    obtain ⟨t, ht, hr⟩ := hl.2 ⟨s, by simp, h⟩
    obtain ⟨v, hv, hw⟩ := Re.mem_seq.1 ht
    exact ⟨t, Re.mem_seq.2 ⟨_, Re.mem_bol.2 ⟨rfl, rfl⟩, Re.mem_seq.2 ⟨v, hv, Re.mem_seq.2 ⟨t, hw, Re.mem_eol.2 ⟨.inl hr, rfl⟩⟩⟩⟩, hr⟩

end Verif
