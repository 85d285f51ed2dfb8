import Verif.Spec.JsonText
import Verif.Proofs.Schema
import Verif.Proofs.Dict
import Verif.Proofs.JsonPath
/-! `json.loads` undoes `json.dumps` -/

namespace Verif

/-! ## strings -/

theorem scanUnits_literal {c : Char} {t : PyStr} (h1 : c ≠ '"') (h2 : c ≠ '\\') (h3 : 32 ≤ c.toNat) :
    scanUnits (c :: t) = consUnit c.toNat (scanUnits t) := by
  rw [scanUnits]
  · rw [if_neg (by omega)]
  · exact h1
  · intro _ _ _ _ _ h; exact absurd h h2
  · intro _ _ h; exact absurd h h2

theorem scanUnits_uEscape {n : Nat} (h : n < 65536) (t : PyStr) : scanUnits (uEscape n ++ t) = consUnit n (scanUnits t) := by
  have h1 := parseHex_hexDigits 4 n (by omega)
  have h2 := hexDigits_length 4 n
  match h3 : hexDigits 4 n with
  | [a, b, c, d] =>
    rw [uEscape, h3]
    rw [h3] at h1
    simp only [List.cons_append, List.nil_append]
    rw [scanUnits, h1]
  | [] => rw [h3] at h2; cases h2
  | [_] => rw [h3] at h2; cases h2
  | [_, _] => rw [h3] at h2; cases h2
  | [_, _, _] => rw [h3] at h2; cases h2
  | _ :: _ :: _ :: _ :: _ :: _ => rw [h3] at h2; simp at h2

theorem scanUnits_simple {x : Char} {n : Nat} (hx : x ≠ 'u') (h : simpleEscape x = some n) (t : PyStr) :
    scanUnits ('\\' :: x :: t) = consUnit n (scanUnits t) := by
  rw [scanUnits]
  · rw [h]
  · intro a b c d rest h _; exact absurd h hx

/-- the units a character is written as -/
def unitsOf (ascii : Bool) (c : Char) : List Nat :=
  if ascii && 65536 ≤ c.toNat then [55296 + (c.toNat - 65536) / 1024, 56320 + (c.toNat - 65536) % 1024] else [c.toNat]

theorem char_lt (c : Char) : c.toNat < 1114112 := by
  have := c.valid
  simp only [UInt32.isValidChar, Nat.isValidChar] at this
  show c.val.toNat < _
  omega

theorem char_not_surrogate (c : Char) : ¬ (55296 ≤ c.toNat ∧ c.toNat ≤ 57343) := by
  have := c.valid
  simp only [UInt32.isValidChar, Nat.isValidChar] at this
  show ¬ (55296 ≤ c.val.toNat ∧ c.val.toNat ≤ 57343)
  omega

theorem scanUnits_escape (ascii : Bool) (c : Char) (t : PyStr) :
    scanUnits (jsonEscape ascii c ++ t) = (unitsOf ascii c).foldr consUnit (scanUnits t) := by
  have hlt := char_lt c
  have small : c.toNat < 65536 → unitsOf ascii c = [c.toNat] := by
    intro h
    unfold unitsOf
    rw [if_neg (by simp; omega)]
  unfold jsonEscape
  simp only
  split
  · rename_i h; rw [small (by omega), h]; exact scanUnits_simple (by decide) (by decide) t
  split
  · rename_i h; rw [small (by omega), h]; exact scanUnits_simple (by decide) (by decide) t
  split
  · rename_i h; rw [small (by omega), h]; exact scanUnits_simple (by decide) (by decide) t
  split
  · rename_i h; rw [small (by omega), h]; exact scanUnits_simple (by decide) (by decide) t
  split
  · rename_i h; rw [small (by omega), h]; exact scanUnits_simple (by decide) (by decide) t
  split
  · rename_i h; rw [small (by omega), h]; exact scanUnits_simple (by decide) (by decide) t
  split
  · rename_i h; rw [small (by omega), h]; exact scanUnits_simple (by decide) (by decide) t
  split
  · rw [small (by omega)]; exact scanUnits_uEscape (by omega) t
  rename_i h34 h92 _ _ _ _ _ h32
  split
  · rename_i ha
    simp only [Bool.and_eq_true, decide_eq_true_eq] at ha
    split
    · rename_i h; rw [small h]; exact scanUnits_uEscape h t
    · unfold unitsOf
      rw [if_pos (by simp [ha.1]; omega), List.append_assoc, scanUnits_uEscape (by omega), scanUnits_uEscape (by omega)]
      rfl
  · rename_i ha
    have hu : unitsOf ascii c = [c.toNat] := by
      unfold unitsOf
      rw [if_neg]
      intro h
      rw [Bool.and_eq_true, decide_eq_true_eq] at h
      exact ha (by rw [Bool.and_eq_true, decide_eq_true_eq]; exact ⟨h.1, by omega⟩)
    rw [hu]
    refine scanUnits_literal ?_ ?_ (by omega)
    · rintro rfl; exact h34 rfl
    · rintro rfl; exact h92 rfl

theorem joinUnits_unitsOf (ascii : Bool) (c : Char) (l : List Nat) :
    joinUnits (unitsOf ascii c ++ l) = (joinUnits l).map (c :: ·) := by
  have hlt := char_lt c
  have hs := char_not_surrogate c
  unfold unitsOf
  split
  · rename_i h
    rw [Bool.and_eq_true, decide_eq_true_eq] at h
    rw [List.cons_append, List.cons_append, List.nil_append, joinUnits.eq_def]
    simp only
    rw [if_pos (by omega), if_pos (by omega)]
    have : 65536 + (55296 + (c.toNat - 65536) / 1024 - 55296) * 1024 + (56320 + (c.toNat - 65536) % 1024 - 56320) = c.toNat := by omega
    rw [this, Char.ofNat_toNat]
  · rw [List.cons_append, List.nil_append, joinUnits.eq_def]
    simp only
    rw [if_neg (by omega), if_neg (by omega), Char.ofNat_toNat]

theorem parseJsonString_quote (ascii : Bool) (s t : PyStr) :
    parseJsonString (s.flatMap (jsonEscape ascii) ++ ('"' :: t)) = .ok (s, t) := by
  have h : ∃ us, scanUnits (s.flatMap (jsonEscape ascii) ++ ('"' :: t)) = .ok (us, t) ∧ joinUnits us = some s := by
    induction s with
    | nil => exact ⟨[], by rw [List.flatMap_nil, List.nil_append, scanUnits], rfl⟩
    | cons c s ih =>
      obtain ⟨us, h1, h2⟩ := ih
      refine ⟨unitsOf ascii c ++ us, ?_, by rw [joinUnits_unitsOf, h2]; rfl⟩
      rw [List.flatMap_cons, List.append_assoc, scanUnits_escape, h1]
      unfold unitsOf
      split <;> rfl
  obtain ⟨us, h1, h2⟩ := h
  unfold parseJsonString
  rw [h1]
  simp only [h2]

/-! ## numbers -/

theorem digitChar_ascii : ∀ n < 10, isAsciiDigit (digitChar n) = true ∧ (digitChar n = '0' → n = 0) := by decide

theorem natToDecAux_ascii (fuel n : Nat) (h : n ≤ fuel) :
    (∀ c ∈ natToDecAux fuel n, isAsciiDigit c = true) ∧ (n ≠ 0 → (natToDecAux fuel n).head? ≠ some '0') := by
  induction fuel generalizing n with
  | zero =>
    obtain rfl : n = 0 := by omega
    exact ⟨by decide, fun h => absurd rfl h⟩
  | succ fuel ih =>
    unfold natToDecAux
    split
    · rename_i hn
      obtain ⟨h1, h2⟩ := digitChar_ascii n hn
      exact ⟨by simpa using h1, fun h3 h4 => h3 (h2 (by simpa using h4))⟩
    · rename_i hn
      obtain ⟨h1, h2⟩ := ih (n / 10) (by omega)
      refine ⟨fun c hc => ?_, fun _ => ?_⟩
      · rcases List.mem_append.1 hc with hc | hc
        · exact h1 c hc
        · rw [List.mem_singleton.1 hc]; exact (digitChar_ascii _ (by omega)).1
      · have := h2 (by omega)
        cases hl : natToDecAux fuel (n / 10) with
        | nil => exact absurd hl (natToDecAux_spec fuel (n / 10) (by omega)).1
        | cons c t => rw [hl] at this; simpa using this

/-- the text behind a value: nothing, or a character that ends a number -/
def Ends (rest : PyStr) : Prop := ∀ c, rest.head? = some c → c = ',' ∨ c = '\n' ∨ c = ']' ∨ c = '}'

theorem takeWhile_digits (s rest : PyStr) (hs : ∀ c ∈ s, isAsciiDigit c = true) (hr : Ends rest) :
    (s ++ rest).takeWhile isAsciiDigit = s ∧ (s ++ rest).dropWhile isAsciiDigit = rest := by
  induction s with
  | nil =>
    cases rest with
    | nil => exact ⟨rfl, rfl⟩
    | cons c t =>
      have : isAsciiDigit c = false := by rcases hr c rfl with rfl | rfl | rfl | rfl <;> decide
      simp [this]
  | cons c s ih =>
    obtain ⟨h1, h2⟩ := ih fun x hx => hs x (by simp [hx])
    have := hs c (by simp)
    simp [this, h1, h2]

theorem finishNumber_int {negative : Bool} {ds rest : PyStr}
    (h : ∀ c, rest.head? = some c → c ≠ '.' ∧ c ≠ 'e' ∧ c ≠ 'E') :
    finishNumber negative ds rest = (.num (if negative then - (decToNat ds : Int) else decToNat ds), rest) := by
  have h1 : scanFraction rest = (none, rest) := by
    unfold scanFraction
    split
    · exact absurd rfl (h '.' rfl).1
    · rfl
  have h2 : scanExponent rest = (none, rest) := by
    unfold scanExponent
    split
    · rename_i c s
      rw [if_neg]
      rintro (rfl | rfl)
      · exact (h _ rfl).2.1 rfl
      · exact (h _ rfl).2.2 rfl
    · rfl
  unfold finishNumber
  rw [h1]
  dsimp only
  rw [h2]
  rfl

theorem finishNumber_ends {negative : Bool} {ds rest : PyStr} (hr : Ends rest) :
    finishNumber negative ds rest = (.num (if negative then - (decToNat ds : Int) else decToNat ds), rest) :=
  finishNumber_int fun c hc => by rcases hr c hc with rfl | rfl | rfl | rfl <;> decide

theorem parseUnsigned_natToDec (negative : Bool) (n : Nat) {rest : PyStr} (hr : Ends rest) :
    parseUnsigned negative (natToDec n ++ rest) = .ok (.num (if negative then - (n : Int) else n), rest) := by
  obtain ⟨h1, _, h3⟩ := natToDec_spec n
  obtain ⟨h4, h5⟩ := natToDecAux_ascii n n (Nat.le_refl n)
  change ∀ c ∈ natToDec n, _ at h4
  change n ≠ 0 → (natToDec n).head? ≠ _ at h5
  cases hn : natToDec n with
  | nil => exact absurd hn h1
  | cons c t =>
    rw [hn] at h3 h4 h5
    rw [List.cons_append, parseUnsigned]
    split
    · rename_i hc
      have hn0 : n = 0 := by
        by_contra h
        exact h5 h (by rw [hc]; rfl)
      subst hn0
      injection hn with _ ht
      subst ht
      rw [List.nil_append, finishNumber_ends hr]
      cases negative <;> rfl
    · rw [if_pos (h4 c (by simp))]
      obtain ⟨h6, h7⟩ := takeWhile_digits t rest (fun x hx => h4 x (by simp [hx])) hr
      rw [h6, h7, finishNumber_ends hr, h3]

theorem digit_not_prefix {c : Char} (h : isAsciiDigit c = true) (d : Char) (hd : isAsciiDigit d = false) (w t : PyStr) :
    (d :: w).isPrefixOf (c :: t) = false := by
  have : d ≠ c := by rintro rfl; rw [h] at hd; cases hd
  simp [List.isPrefixOf, this]

theorem parseScalar_intToDec (i : Int) {rest : PyStr} (hr : Ends rest) :
    parseScalar (intToDec i ++ rest) = .ok (.num i, rest) := by
  have hd : ∀ n, ∃ c t, natToDec n = c :: t ∧ isAsciiDigit c = true := by
    intro n
    obtain ⟨h4, _⟩ := natToDecAux_ascii n n (Nat.le_refl n)
    change ∀ c ∈ natToDec n, _ at h4
    cases hn : natToDec n with
    | nil => exact absurd hn (natToDec_spec n).1
    | cons c t => exact ⟨c, t, rfl, h4 c (by rw [hn]; simp)⟩
  cases i with
  | ofNat n =>
    have := parseUnsigned_natToDec false n hr
    obtain ⟨c, t, h1, h2⟩ := hd n
    unfold intToDec parseScalar
    simp only
    rw [h1] at this ⊢
    rw [List.cons_append] at this ⊢
    rw [digit_not_prefix h2 _ (by decide), digit_not_prefix h2 _ (by decide), digit_not_prefix h2 _ (by decide),
      digit_not_prefix h2 _ (by decide), digit_not_prefix h2 _ (by decide), digit_not_prefix h2 _ (by decide)]
    simp only [Bool.false_eq_true, if_false]
    split
    · rename_i h; injection h with h _; subst h; cases h2
    · exact this
  | negSucc n =>
    have := parseUnsigned_natToDec true (n + 1) hr
    obtain ⟨c, t, h1, h2⟩ := hd (n + 1)
    unfold intToDec parseScalar
    simp only
    rw [h1] at this ⊢
    rw [List.cons_append] at this ⊢
    have h3 := digit_not_prefix h2 'I' (by decide) py!"nfinity" (t ++ rest)
    have h4 : ∀ w s : PyStr, ('-' :: w).isPrefixOf ('-' :: s) = w.isPrefixOf s := fun w s => by simp [List.isPrefixOf]
    have h5 : ∀ (d : Char) (w s : PyStr), d ≠ '-' → (d :: w).isPrefixOf ('-' :: s) = false := fun d w s h => by simp [List.isPrefixOf, h]
    rw [List.cons_append, h4, h3, h5 _ _ _ (by decide), h5 _ _ _ (by decide), h5 _ _ _ (by decide), h5 _ _ _ (by decide), h5 _ _ _ (by decide)]
    simp only [Bool.false_eq_true, if_false]
    rw [this]
    rfl

/-! ## white space -/

theorem skip_newline (st : JsonStyle) (level : Nat) {c : Char} (hc : isJsonSpace c = false) (t : PyStr) :
    skipJsonSpace (st.newline level ++ c :: t) = c :: t := by
  have h : ∀ k : Nat, skipJsonSpace (List.replicate k ' ' ++ c :: t) = c :: t := by
    intro k
    induction k with
    | zero => simp [skipJsonSpace, hc]
    | succ k ih => rw [List.replicate_succ, List.cons_append]; exact ih
  unfold JsonStyle.newline
  split
  · exact h 0
  · exact h _

theorem skip_cons {c : Char} (hc : isJsonSpace c = false) (t : PyStr) : skipJsonSpace (c :: t) = c :: t := by
  simp [skipJsonSpace, hc]

theorem ends_newline (st : JsonStyle) (level : Nat) {c : Char} (hc : c = ',' ∨ c = ']' ∨ c = '}') (t : PyStr) :
    Ends (st.newline level ++ c :: t) := by
  unfold JsonStyle.newline
  split
  · intro d hd; injection hd with hd; subst hd; tauto
  · intro d hd; injection hd with hd; subst hd; tauto

theorem separator_eq (st : JsonStyle) (level : Nat) : ∃ w, st.separator level = ',' :: w ∧
    ∀ c t, isJsonSpace c = false → skipJsonSpace (w ++ c :: t) = c :: t := by
  unfold JsonStyle.separator
  split
  · exact ⟨[' '], rfl, fun c t hc => by
      change skipJsonSpace (' ' :: c :: t) = _
      rw [skipJsonSpace, List.dropWhile_cons, if_pos (by decide)]
      exact skip_cons hc t⟩
  · exact ⟨_, rfl, fun c t hc => skip_newline st level hc t⟩

/-! ## values -/

mutual
/-- the number of nested calls needed to read a value -/
def Json.cost : Json → Nat
  | .arr l => 1 + Json.costItems l
  | .obj d => 1 + Json.costMembers d
  | _ => 1
def Json.costItems : List Json → Nat
  | [] => 0
  | j :: l => 1 + j.cost + Json.costItems l
def Json.costMembers : List (PyStr × Json) → Nat
  | [] => 0
  | (_, v) :: d => 1 + v.cost + Json.costMembers d
end

theorem render_head (st : JsonStyle) (level : Nat) (j : Json) : ∃ c t, st.render level j = c :: t ∧ isJsonSpace c = false ∧
    c ≠ ']' ∧ c ≠ '}' ∧ c ≠ '\uFEFF' := by
  have hdig : ∀ n, ∃ c t, natToDec n = c :: t ∧ isAsciiDigit c = true := by
    intro n
    obtain ⟨h4, _⟩ := natToDecAux_ascii n n (Nat.le_refl n)
    change ∀ c ∈ natToDec n, _ at h4
    cases hn : natToDec n with
    | nil => exact absurd hn (natToDec_spec n).1
    | cons c t => exact ⟨c, t, rfl, h4 c (by rw [hn]; simp)⟩
  have hne : ∀ c, isAsciiDigit c = true → isJsonSpace c = false ∧ c ≠ ']' ∧ c ≠ '}' ∧ c ≠ '\uFEFF' := by
    intro c hc
    have h : ∀ d : Char, isAsciiDigit d = false → c ≠ d := by rintro d hd rfl; rw [hc] at hd; cases hd
    refine ⟨?_, h _ (by decide), h _ (by decide), h _ (by decide)⟩
    have h1 := h ' ' (by decide)
    have h2 := h '\t' (by decide)
    have h3 := h '\n' (by decide)
    have h4 := h '\r' (by decide)
    simp [isJsonSpace, h1, h2, h3, h4]
  cases j with
  | null => exact ⟨_, _, by rw [JsonStyle.render], by decide⟩
  | bool b => cases b <;> exact ⟨_, _, by rw [JsonStyle.render], by decide⟩
  | float f => exact ⟨_, _, by rw [JsonStyle.render], by decide⟩
  | num i =>
    rw [JsonStyle.render]
    cases i with
    | ofNat n => obtain ⟨c, t, h1, h2⟩ := hdig n; exact ⟨c, t, h1, hne c h2⟩
    | negSucc n => exact ⟨'-', _, rfl, by decide⟩
  | str s => exact ⟨'"', _, by rw [JsonStyle.render, jsonQuote], by decide⟩
  | arr l => cases l <;> exact ⟨'[', _, by rw [JsonStyle.render], by decide⟩
  | obj d =>
    cases d with
    | nil => exact ⟨'{', _, by rw [JsonStyle.render], by decide⟩
    | cons m d => exact ⟨'{', _, by rw [JsonStyle.render], by decide⟩

theorem ends_renderItems (st : JsonStyle) (level level' : Nat) (l : List Json) (rest : PyStr) :
    Ends (st.renderItems level l ++ (st.newline level' ++ ']' :: rest)) := by
  cases l with
  | nil => rw [JsonStyle.renderItems, List.nil_append]; exact ends_newline st level' (by decide) rest
  | cons j l =>
    obtain ⟨w, hw, _⟩ := separator_eq st level
    rw [JsonStyle.renderItems, hw]
    intro c hc
    injection hc with hc
    exact .inl hc.symm

theorem ends_renderMembers (st : JsonStyle) (level level' : Nat) (d : List (PyStr × Json)) (rest : PyStr) :
    Ends (st.renderMembers level d ++ (st.newline level' ++ '}' :: rest)) := by
  cases d with
  | nil => rw [JsonStyle.renderMembers, List.nil_append]; exact ends_newline st level' (by decide) rest
  | cons m d =>
    obtain ⟨w, hw, _⟩ := separator_eq st level
    rw [JsonStyle.renderMembers, hw]
    intro c hc
    injection hc with hc
    exact .inl hc.symm

mutual
theorem parse_render (st : JsonStyle) : ∀ j : Json, j.IsPython → ∀ (level : Nat) (rest : PyStr) (fuel : Nat), Ends rest → j.cost ≤ fuel →
    parseJsonValue fuel (st.render level j ++ rest) = .ok (j, rest)
  | .null, _, level, rest, fuel, _, hf => by
    obtain ⟨f, rfl⟩ : ∃ f, fuel = f + 1 := ⟨fuel - 1, by simp only [Json.cost] at hf; omega⟩
    rw [JsonStyle.render, parseJsonValue]
    · rfl
    all_goals (intro t h; cases h)
  | .bool b, _, level, rest, fuel, _, hf => by
    obtain ⟨f, rfl⟩ : ∃ f, fuel = f + 1 := ⟨fuel - 1, by simp only [Json.cost] at hf; omega⟩
    cases b <;> rw [JsonStyle.render, parseJsonValue] <;> first | rfl | (intro t h; cases h)
  | .num i, _, level, rest, fuel, hr, hf => by
    obtain ⟨f, rfl⟩ : ∃ f, fuel = f + 1 := ⟨fuel - 1, by simp only [Json.cost] at hf; omega⟩
    have h := parseScalar_intToDec i hr
    obtain ⟨c, t, hc, _⟩ := render_head st level (.num i)
    rw [JsonStyle.render] at hc ⊢
    have hd : c = '-' ∨ isAsciiDigit c = true := by
      cases i with
      | ofNat n =>
        right
        exact (natToDecAux_ascii n n (Nat.le_refl n)).1 c (by rw [show natToDecAux n n = c :: t from hc]; simp)
      | negSucc n => left; injection hc with hc; exact hc.symm
    rw [hc] at h ⊢
    rw [List.cons_append] at h ⊢
    unfold parseJsonValue
    split
    · rename_i h'; injection h' with h' _; subst h'; rcases hd with hd | hd <;> cases hd
    · rename_i h'; injection h' with h' _; subst h'; rcases hd with hd | hd <;> cases hd
    · rename_i h'; injection h' with h' _; subst h'; rcases hd with hd | hd <;> cases hd
    · exact h
  | .str s, _, level, rest, fuel, _, hf => by
    obtain ⟨f, rfl⟩ : ∃ f, fuel = f + 1 := ⟨fuel - 1, by simp only [Json.cost] at hf; omega⟩
    rw [JsonStyle.render, jsonQuote, List.cons_append, List.append_assoc, List.singleton_append, parseJsonValue,
      parseJsonString_quote]
    rfl
  | .arr [], _, level, rest, fuel, _, hf => by
    obtain ⟨f, rfl⟩ : ∃ f, fuel = f + 1 := ⟨fuel - 1, by simp only [Json.cost] at hf; omega⟩
    rw [JsonStyle.render]
    rfl
  | .arr (j :: l), hp, level, rest, fuel, _, hf => by
    obtain ⟨f, rfl⟩ : ∃ f, fuel = f + 1 := ⟨fuel - 1, by simp only [Json.cost] at hf; omega⟩
    have ih := parse_items st (j :: l) (by simpa only [Json.IsPython] using hp) (level + 1) level rest f
      (by rw [Json.cost] at hf; omega) j l rfl
    obtain ⟨c, t, hc, h1, h2, _⟩ := render_head st (level + 1) j
    rw [JsonStyle.render]
    simp only [List.cons_append, List.append_assoc, List.nil_append]
    rw [parseJsonValue]
    rw [hc, List.cons_append, skip_newline st _ h1]
    rw [hc, List.cons_append] at ih
    split
    · rename_i h'; injection h' with h' _; exact absurd h' h2
    · rename_i h' _; rw [ih]; rfl
  | .obj [], _, level, rest, fuel, _, hf => by
    obtain ⟨f, rfl⟩ : ∃ f, fuel = f + 1 := ⟨fuel - 1, by simp only [Json.cost] at hf; omega⟩
    rw [JsonStyle.render]
    rfl
  | .obj ((k, v) :: d), hp, level, rest, fuel, _, hf => by
    obtain ⟨f, rfl⟩ : ∃ f, fuel = f + 1 := ⟨fuel - 1, by simp only [Json.cost] at hf; omega⟩
    rw [Json.IsPython] at hp
    have ih := parse_members st ((k, v) :: d) hp.2 (level + 1) level rest f
      (by rw [Json.cost] at hf; omega) k v d rfl
    rw [JsonStyle.render, jsonQuote]
    simp only [List.cons_append, List.append_assoc, List.nil_append]
    rw [parseJsonValue, skip_newline st _ (by decide)]
    simp only
    rw [ih]
    simp only [Except.map]
    rw [dictUpdate_nodup [] _ (by simpa using hp.1)]
    rfl
theorem parse_items (st : JsonStyle) : ∀ l : List Json, Json.IsPythonItems l → ∀ (level level' : Nat) (rest : PyStr) (fuel : Nat),
    Json.costItems l ≤ fuel → ∀ j l', l = j :: l' →
    parseJsonItems fuel (st.render level j ++ (st.renderItems level l' ++ (st.newline level' ++ ']' :: rest))) = .ok (l, rest)
  | [], _, _, _, _, _, _, _, _, h => by cases h
  | j :: l, hp, level, level', rest, fuel, hf, j', l', h => by
    injection h with h1 h2
    subst h1 h2
    rw [Json.IsPythonItems] at hp
    rw [Json.costItems] at hf
    obtain ⟨f, rfl⟩ : ∃ f, fuel = f + 1 := ⟨fuel - 1, by omega⟩
    rw [parseJsonItems, parse_render st j hp.1 level _ f (ends_renderItems st level level' l rest) (by omega)]
    simp only
    cases l with
    | nil =>
      rw [JsonStyle.renderItems, List.nil_append, skip_newline st _ (by decide)]
      rfl
    | cons j2 l2 =>
      obtain ⟨w, hw, hskip⟩ := separator_eq st level
      have ih := parse_items st (j2 :: l2) hp.2 level level' rest f (by omega) j2 l2 rfl
      obtain ⟨c, t, hc, h1, _⟩ := render_head st level j2
      rw [JsonStyle.renderItems, hw]
      simp only [List.cons_append, List.append_assoc]
      rw [skip_cons (by decide)]
      simp only
      rw [hc, List.cons_append] at ih ⊢
      rw [hskip c _ h1, ih]
      rfl
theorem parse_members (st : JsonStyle) : ∀ d : List (PyStr × Json), Json.IsPythonMembers d → ∀ (level level' : Nat) (rest : PyStr) (fuel : Nat),
    Json.costMembers d ≤ fuel → ∀ k v d', d = (k, v) :: d' →
    parseJsonMembers fuel (k.flatMap (jsonEscape st.ensureAscii) ++ ('"' :: ':' :: ' ' :: (st.render level v ++ (st.renderMembers level d' ++
      (st.newline level' ++ '}' :: rest))))) = .ok (d, rest)
  | [], _, _, _, _, _, _, _, _, _, h => by cases h
  | (k, v) :: d, hp, level, level', rest, fuel, hf, k', v', d', h => by
    injection h with h1 h2
    injection h1 with h1 h3
    subst h1 h2 h3
    rw [Json.IsPythonMembers] at hp
    rw [Json.costMembers] at hf
    obtain ⟨f, rfl⟩ : ∃ f, fuel = f + 1 := ⟨fuel - 1, by omega⟩
    rw [parseJsonMembers, parseJsonString_quote]
    simp only
    rw [skip_cons (by decide)]
    simp only
    have hv := parse_render st v hp.1 level _ f (ends_renderMembers st level level' d rest) (by omega)
    obtain ⟨c, t, hc, h1, _⟩ := render_head st level v
    have hs : skipJsonSpace (' ' :: (st.render level v ++ (st.renderMembers level d ++ (st.newline level' ++ '}' :: rest)))) =
        st.render level v ++ (st.renderMembers level d ++ (st.newline level' ++ '}' :: rest)) := by
      rw [skipJsonSpace, List.dropWhile_cons, if_pos (by decide), hc, List.cons_append]
      exact skip_cons h1 _
    rw [hs, hv]
    simp only
    cases d with
    | nil =>
      rw [JsonStyle.renderMembers, List.nil_append, skip_newline st _ (by decide)]
      rfl
    | cons m d2 =>
      obtain ⟨k2, v2⟩ := m
      obtain ⟨w, hw, hskip⟩ := separator_eq st level
      have ih := parse_members st ((k2, v2) :: d2) hp.2 level level' rest f (by omega) k2 v2 d2 rfl
      rw [JsonStyle.renderMembers, hw, jsonQuote]
      simp only [List.cons_append, List.append_assoc, List.nil_append]
      rw [skip_cons (by decide)]
      simp only
      rw [hskip '"' _ (by decide)]
      simp only
      rw [ih]
      rfl
end

mutual
theorem cost_le (st : JsonStyle) : ∀ (j : Json) (level : Nat), j.cost + 1 ≤ 2 * (st.render level j).length
  | .null, level => by rw [JsonStyle.render]; decide
  | .bool b, level => by cases b <;> rw [JsonStyle.render] <;> decide
  | .float f, level => by
    obtain ⟨c, t, hc, _⟩ := render_head st level (.float f)
    rw [hc, Json.cost, List.length_cons]
    · omega
    all_goals (intros; contradiction)
  | .num i, level => by
    obtain ⟨c, t, hc, _⟩ := render_head st level (.num i)
    rw [hc, Json.cost, List.length_cons]
    · omega
    all_goals (intros; contradiction)
  | .str s, level => by
    obtain ⟨c, t, hc, _⟩ := render_head st level (.str s)
    rw [hc, Json.cost, List.length_cons]
    · omega
    all_goals (intros; contradiction)
  | .arr [], level => by rw [JsonStyle.render, Json.cost, Json.costItems]; decide
  | .arr (j :: l), level => by
    have h1 := cost_le st j (level + 1)
    have h2 := cost_items_le st l (level + 1)
    rw [JsonStyle.render, Json.cost, Json.costItems]
    simp only [List.length_cons, List.length_append, List.length_nil]
    omega
  | .obj [], level => by rw [JsonStyle.render, Json.cost, Json.costMembers]; decide
  | .obj ((k, v) :: d), level => by
    have h1 := cost_le st v (level + 1)
    have h2 := cost_members_le st d (level + 1)
    rw [JsonStyle.render, Json.cost, Json.costMembers]
    simp only [List.length_cons, List.length_append, List.length_nil]
    omega
theorem cost_items_le (st : JsonStyle) : ∀ (l : List Json) (level : Nat), Json.costItems l ≤ 2 * (st.renderItems level l).length
  | [], level => by rw [Json.costItems]; omega
  | j :: l, level => by
    have h1 := cost_le st j level
    have h2 := cost_items_le st l level
    rw [JsonStyle.renderItems, Json.costItems]
    simp only [List.length_append]
    omega
theorem cost_members_le (st : JsonStyle) : ∀ (d : List (PyStr × Json)) (level : Nat), Json.costMembers d ≤ 2 * (st.renderMembers level d).length
  | [], level => by rw [Json.costMembers]; omega
  | (k, v) :: d, level => by
    have h1 := cost_le st v level
    have h2 := cost_members_le st d level
    rw [JsonStyle.renderMembers, Json.costMembers]
    simp only [List.length_append, List.length_cons]
    omega
end

theorem jsonLoads_render (st : JsonStyle) (j : Json) (h : j.IsPython) : jsonLoads (st.render 0 j) = .ok j := by
  have h1 := parse_render st j h 0 [] (2 * (st.render 0 j).length + 2) (fun c hc => by cases hc) (by have := cost_le st j 0; omega)
  rw [List.append_nil] at h1
  obtain ⟨c, t, hc, h2, _, _, h3⟩ := render_head st 0 j
  unfold jsonLoads
  rw [show skipJsonSpace (st.render 0 j) = st.render 0 j by rw [hc]; exact skip_cons h2 t, h1]
  rw [hc, if_neg]
  · rfl
  · have h4 : ('\uFEFF' == c) = false := by simpa using h3.symm
    simp [List.isPrefixOf, h4]

/-! ## sorting -/

theorem insertMember_perm (m : PyStr × Json) (l : List (PyStr × Json)) : (insertMember m l).Perm (m :: l) := by
  induction l with
  | nil => exact List.Perm.refl _
  | cons m' l ih =>
    unfold insertMember
    split
    · exact List.Perm.refl _
    · exact (ih.cons m').trans (List.Perm.swap m m' l)

theorem isPythonMembers_iff (d : List (PyStr × Json)) : Json.IsPythonMembers d ↔ ∀ m ∈ d, m.2.IsPython := by
  induction d with
  | nil => simp [Json.IsPythonMembers]
  | cons m d ih => obtain ⟨k, v⟩ := m; rw [Json.IsPythonMembers, ih]; simp

theorem isPythonItems_iff (l : List Json) : Json.IsPythonItems l ↔ ∀ j ∈ l, j.IsPython := by
  induction l with
  | nil => simp [Json.IsPythonItems]
  | cons j l ih => rw [Json.IsPythonItems, ih]; simp

/-- the members with sorted values, in the old order -/
def sortedValues : List (PyStr × Json) → List (PyStr × Json)
  | [] => []
  | (k, v) :: d => (k, v.sorted) :: sortedValues d

theorem sortedMembers_perm (d : List (PyStr × Json)) : (Json.sortedMembers d).Perm (sortedValues d) := by
  induction d with
  | nil => rw [Json.sortedMembers]; exact List.Perm.refl _
  | cons m d ih =>
    obtain ⟨k, v⟩ := m
    rw [Json.sortedMembers, sortedValues]
    exact (insertMember_perm _ _).trans (ih.cons _)

theorem sortedValues_keys (d : List (PyStr × Json)) : (sortedValues d).map Prod.fst = d.map Prod.fst := by
  induction d with
  | nil => rfl
  | cons m d ih => obtain ⟨k, v⟩ := m; simp [sortedValues, ih]

mutual
theorem same_sorted : ∀ j : Json, Json.Same j j.sorted
  | .null => by rw [Json.sorted]; exact .null
  | .bool b => by rw [Json.sorted]; exact .bool b
  | .num i => by rw [Json.sorted]; exact .num i
  | .float f => by rw [Json.sorted]; exact .float f
  | .str s => by rw [Json.sorted]; exact .str s
  | .arr l => by rw [Json.sorted]; exact .arr (same_sortedItems l)
  | .obj d => by rw [Json.sorted]; exact .obj (same_sortedValues d) (sortedMembers_perm d).symm
theorem same_sortedItems : ∀ l : List Json, Json.SameItems l (Json.sortedItems l)
  | [] => by rw [Json.sortedItems]; exact .nil
  | j :: l => by rw [Json.sortedItems]; exact .cons (same_sorted j) (same_sortedItems l)
theorem same_sortedValues : ∀ d : List (PyStr × Json), Json.SameMembers d (sortedValues d)
  | [] => .nil
  | (k, v) :: d => by rw [sortedValues]; exact .cons (same_sorted v) (same_sortedValues d)
end

mutual
theorem same_refl : ∀ j : Json, Json.Same j j
  | .null => .null
  | .bool b => .bool b
  | .num i => .num i
  | .float f => .float f
  | .str s => .str s
  | .arr l => .arr (sameItems_refl l)
  | .obj d => .obj (sameMembers_refl d) (List.Perm.refl d)
theorem sameItems_refl : ∀ l : List Json, Json.SameItems l l
  | [] => .nil
  | j :: l => .cons (same_refl j) (sameItems_refl l)
theorem sameMembers_refl : ∀ d : List (PyStr × Json), Json.SameMembers d d
  | [] => .nil
  | (_, v) :: d => .cons (same_refl v) (sameMembers_refl d)
end

mutual
theorem isPython_sorted : ∀ j : Json, j.IsPython → j.sorted.IsPython
  | .null, _ => by rw [Json.sorted]; trivial
  | .bool b, _ => by rw [Json.sorted]; trivial
  | .num i, _ => by rw [Json.sorted]; trivial
  | .float f, h => by rw [Json.IsPython] at h; exact h.elim
  | .str s, _ => by rw [Json.sorted]; trivial
  | .arr l, h => by
    rw [Json.sorted, Json.IsPython]
    exact isPython_sortedItems l (by simpa only [Json.IsPython] using h)
  | .obj d, h => by
    rw [Json.IsPython] at h
    rw [Json.sorted, Json.IsPython]
    refine ⟨?_, (isPythonMembers_iff _).2 fun m hm => ?_⟩
    · rw [((sortedMembers_perm d).map Prod.fst).nodup_iff, sortedValues_keys]; exact h.1
    · exact (isPythonMembers_iff _).1 (isPython_sortedValues d h.2) m ((sortedMembers_perm d).mem_iff.1 hm)
theorem isPython_sortedItems : ∀ l : List Json, Json.IsPythonItems l → Json.IsPythonItems (Json.sortedItems l)
  | [], _ => by rw [Json.sortedItems]; trivial
  | j :: l, h => by
    rw [Json.IsPythonItems] at h
    rw [Json.sortedItems, Json.IsPythonItems]
    exact ⟨isPython_sorted j h.1, isPython_sortedItems l h.2⟩
theorem isPython_sortedValues : ∀ d : List (PyStr × Json), Json.IsPythonMembers d → Json.IsPythonMembers (sortedValues d)
  | [], _ => trivial
  | (k, v) :: d, h => by
    rw [Json.IsPythonMembers] at h
    rw [sortedValues, Json.IsPythonMembers]
    exact ⟨isPython_sorted v h.1, isPython_sortedValues d h.2⟩
end

/-- the order of the keys after `sort_keys` -/
theorem insertMember_pairwise (m : PyStr × Json) (l : List (PyStr × Json)) (h : l.Pairwise fun a b => a.1 ≤ b.1) :
    (insertMember m l).Pairwise fun a b => a.1 ≤ b.1 := by
  induction l with
  | nil => exact List.pairwise_singleton _ _
  | cons m' l ih =>
    unfold insertMember
    split
    · rename_i hle
      refine List.Pairwise.cons ?_ h
      intro x hx
      rcases List.mem_cons.1 hx with rfl | hx
      · exact hle
      · exact List.le_trans hle (List.rel_of_pairwise_cons h hx)
    · rename_i hle
      refine List.Pairwise.cons ?_ (ih (List.Pairwise.of_cons h))
      intro x hx
      rcases List.mem_cons.1 ((insertMember_perm m l).mem_iff.1 hx) with rfl | hx
      · exact (List.le_total _ _).resolve_left hle
      · exact List.rel_of_pairwise_cons h hx

theorem sortedMembers_pairwise (d : List (PyStr × Json)) : (Json.sortedMembers d).Pairwise fun a b => a.1 ≤ b.1 := by
  induction d with
  | nil => rw [Json.sortedMembers]; exact List.Pairwise.nil
  | cons m d ih => obtain ⟨k, v⟩ := m; rw [Json.sortedMembers]; exact insertMember_pairwise _ _ ih

theorem sortedValues_eq_map (d : List (PyStr × Json)) : sortedValues d = d.map fun m => (m.1, m.2.sorted) := by
  induction d with
  | nil => rfl
  | cons m d ih => obtain ⟨k, v⟩ := m; simp [sortedValues, ih]

theorem eq_of_sorted_keys : ∀ {l l' : List (PyStr × Json)}, l.Perm l' → (l.map Prod.fst).Nodup →
    l.Pairwise (fun a b => a.1 ≤ b.1) → l'.Pairwise (fun a b => a.1 ≤ b.1) → l = l'
  | [], l', hp, _, _, _ => by rw [List.nil_perm.1 hp]
  | m :: l, [], hp, _, _, _ => absurd hp.length_eq (by simp)
  | m :: l, m' :: l', hp, hn, h1, h2 => by
    have hmm : m = m' := by
      have hm : m ∈ m' :: l' := hp.mem_iff.1 (by simp)
      have hm' : m' ∈ m :: l := hp.mem_iff.2 (by simp)
      rcases List.mem_cons.1 hm with h | h
      · exact h
      rcases List.mem_cons.1 hm' with h' | h'
      · exact h'.symm
      exfalso
      have hle := List.rel_of_pairwise_cons h1 h'
      have hge := List.rel_of_pairwise_cons h2 h
      have heq : m.1 = m'.1 := List.le_antisymm hle hge
      rw [List.map_cons, List.nodup_cons] at hn
      exact hn.1 (heq ▸ List.mem_map_of_mem h')
    subst hmm
    rw [List.map_cons, List.nodup_cons] at hn
    rw [eq_of_sorted_keys (List.perm_cons m |>.1 hp) hn.2 h1.of_cons h2.of_cons]

mutual
theorem sorted_eq_of_same : ∀ {j j' : Json}, Json.Same j j' → j.IsPython → j.sorted = j'.sorted
  | _, _, .null, _ => rfl
  | _, _, .bool _, _ => rfl
  | _, _, .num _, _ => rfl
  | _, _, .float _, _ => rfl
  | _, _, .str _, _ => rfl
  | _, _, .arr h, hp => by
    rw [Json.IsPython] at hp
    rw [Json.sorted, Json.sorted, sortedItems_eq_of_same h hp]
  | _, _, .obj (d := d) (d' := d') (e := e) h hpe, hp => by
    rw [Json.IsPython] at hp
    rw [Json.sorted, Json.sorted]
    have h1 := sortedValues_eq_of_same h hp.2
    have h2 : (sortedValues e).Perm (sortedValues d') := by
      rw [sortedValues_eq_map, sortedValues_eq_map]; exact hpe.map _
    congr 1
    refine eq_of_sorted_keys ((sortedMembers_perm d).trans (h1 ▸ h2.trans (sortedMembers_perm d').symm)) ?_
      (sortedMembers_pairwise d) (sortedMembers_pairwise d')
    rw [((sortedMembers_perm d).map Prod.fst).nodup_iff, sortedValues_keys]; exact hp.1
theorem sortedItems_eq_of_same : ∀ {l l' : List Json}, Json.SameItems l l' → Json.IsPythonItems l →
    Json.sortedItems l = Json.sortedItems l'
  | _, _, .nil, _ => rfl
  | _, _, .cons h h', hp => by
    rw [Json.IsPythonItems] at hp
    rw [Json.sortedItems, Json.sortedItems, sorted_eq_of_same h hp.1, sortedItems_eq_of_same h' hp.2]
theorem sortedValues_eq_of_same : ∀ {d d' : List (PyStr × Json)}, Json.SameMembers d d' → Json.IsPythonMembers d →
    sortedValues d = sortedValues d'
  | _, _, .nil, _ => rfl
  | _, _, .cons h h', hp => by
    rw [Json.IsPythonMembers] at hp
    rw [sortedValues, sortedValues, sorted_eq_of_same h hp.1, sortedValues_eq_of_same h' hp.2]
end

end Verif
