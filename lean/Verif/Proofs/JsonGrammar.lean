import Verif.Proofs.Float
import Verif.Proofs.JsonFuel
import Verif.Proofs.Dict
import Verif.Spec.JsonGrammar
/-! the JSON parser reads exactly the grammar -/

namespace Verif

/-! ## strings -/

theorem charOfNat_of_toNat {c : Char} {n : Nat} (h : c.toNat = n) : c = Char.ofNat n := by
  rw [← h, Char.ofNat_toNat]

theorem hexVal_iff (c : Char) (n : Nat) : hexVal c = some n ↔ HexDigit c n := by
  constructor
  · intro h
    unfold hexVal at h
    dsimp only at h
    split at h
    · injection h with h
      have : c = Char.ofNat (48 + n) := charOfNat_of_toNat (by omega)
      rw [this]; exact .digit n (by omega)
    · split at h
      · injection h with h
        have : c = Char.ofNat (97 + (n - 10)) := charOfNat_of_toNat (by omega)
        rw [this, show n = 10 + (n - 10) by omega, show 10 + (n - 10) - 10 = n - 10 by omega]; exact .lower _ (by omega)
      · split at h
        · injection h with h
          have : c = Char.ofNat (65 + (n - 10)) := charOfNat_of_toNat (by omega)
          rw [this, show n = 10 + (n - 10) by omega, show 10 + (n - 10) - 10 = n - 10 by omega]; exact .upper _ (by omega)
        · cases h
  · intro h
    cases h with
    | digit n h => revert n; decide
    | lower n h => revert n; decide
    | upper n h => revert n; decide

theorem parseHex_four (a b c d : Char) (n : Nat) : parseHex [a, b, c, d] = some n ↔
    ∃ i j k l, HexDigit a i ∧ HexDigit b j ∧ HexDigit c k ∧ HexDigit d l ∧ n = 4096 * i + 256 * j + 16 * k + l := by
  simp only [← hexVal_iff]
  have e : parseHex [a, b, c, d] = (hexVal a).bind fun i => (hexVal b).bind fun j => (hexVal c).bind fun k => (hexVal d).map fun l =>
      4096 * i + 256 * j + 16 * k + l := by
    unfold parseHex
    simp only [List.foldl_cons, List.foldl_nil, Option.bind_some]
    cases hexVal a with
    | none => rfl
    | some i =>
      cases hexVal b with
      | none => rfl
      | some j =>
        cases hexVal c with
        | none => rfl
        | some k =>
          cases hexVal d with
          | none => rfl
          | some l =>
            simp only [Option.map_some, Option.bind_some, Option.some.injEq]
            omega
  rw [e]
  simp only [Option.bind_eq_some_iff, Option.map_eq_some_iff]
  constructor
  · rintro ⟨i, hi, j, hj, k, hk, l, hl, rfl⟩
    exact ⟨i, j, k, l, hi, hj, hk, hl, rfl⟩
  · rintro ⟨i, j, k, l, hi, hj, hk, hl, rfl⟩
    exact ⟨i, hi, j, hj, k, hk, l, hl, rfl⟩

theorem simpleEscape_iff (x : Char) (n : Nat) : simpleEscape x = some n ↔ ∃ y, SimpleEscape x y ∧ y.toNat = n := by
  constructor
  · intro h
    unfold simpleEscape at h
    split at h
    · rename_i hx; cases h; subst hx; exact ⟨_, .quote, rfl⟩
    split at h
    · rename_i hx; cases h; subst hx; exact ⟨_, .backslash, rfl⟩
    split at h
    · rename_i hx; cases h; subst hx; exact ⟨_, .slash, rfl⟩
    split at h
    · rename_i hx; cases h; subst hx; exact ⟨_, .backspace, rfl⟩
    split at h
    · rename_i hx; cases h; subst hx; exact ⟨_, .formFeed, rfl⟩
    split at h
    · rename_i hx; cases h; subst hx; exact ⟨_, .lineFeed, rfl⟩
    split at h
    · rename_i hx; cases h; subst hx; exact ⟨_, .carriageReturn, rfl⟩
    split at h
    · rename_i hx; cases h; subst hx; exact ⟨_, .tab, rfl⟩
    · cases h
  · rintro ⟨y, h, rfl⟩
    cases h <;> rfl

theorem simpleEscape_ne_u {x y : Char} (h : SimpleEscape x y) : x ≠ 'u' := by cases h <;> decide

theorem consUnit_ok {n : Nat} {r : PyRes (List Nat × PyStr)} {l : List Nat} {rest : PyStr} :
    consUnit n r = .ok (l, rest) ↔ ∃ l', r = .ok (l', rest) ∧ l = n :: l' := by
  unfold consUnit
  split
  · simp only [Except.ok.injEq, Prod.mk.injEq]
    constructor
    · rintro ⟨rfl, rfl⟩; exact ⟨_, ⟨rfl, rfl⟩, rfl⟩
    · rintro ⟨l', ⟨rfl, rfl⟩, rfl⟩; exact ⟨rfl, rfl⟩
  · simp

theorem scanUnits_sound {s : PyStr} : ∀ {u : List Nat} {rest : PyStr}, scanUnits s = .ok (u, rest) →
    ∃ body, s = body ++ '"' :: rest ∧ JsonUnits body u := by
  fun_induction scanUnits s with
  | case1 => intro l rest h; cases h
  | case2 => intro l rest h; cases h; exact ⟨[], rfl, .nil⟩
  | case3 a b c d rest' n hn ih =>
    intro l rest h
    obtain ⟨l', h', rfl⟩ := consUnit_ok.1 h
    obtain ⟨body, rfl, hb⟩ := ih h'
    obtain ⟨i, j, k, l, h1, h2, h3, h4, rfl⟩ := (parseHex_four _ _ _ _ _).1 hn
    exact ⟨_, rfl, .hex h1 h2 h3 h4 hb⟩
  | case4 => intro l rest h; cases h
  | case5 c rest' _ n hn ih =>
    intro l rest h
    obtain ⟨l', h', rfl⟩ := consUnit_ok.1 h
    obtain ⟨body, rfl, hb⟩ := ih h'
    obtain ⟨y, hy, rfl⟩ := (simpleEscape_iff _ _).1 hn
    exact ⟨_, rfl, .escape hy hb⟩
  | case6 => intro l rest h; cases h
  | case7 => intro l rest h; cases h
  | case8 c rest' h1 _ h2 h3 ih =>
    intro l rest h
    obtain ⟨l', h', rfl⟩ := consUnit_ok.1 h
    obtain ⟨body, rfl, hb⟩ := ih h'
    refine ⟨c :: body, rfl, .plain ?_ ?_ ?_ hb⟩
    · rintro rfl; exact h1 rfl
    · rintro rfl
      cases body with
      | nil => exact h2 _ _ rfl rfl
      | cons c body => exact h2 _ _ rfl rfl
    · omega

theorem scanUnits_complete {body : PyStr} {u : List Nat} (h : JsonUnits body u) (rest : PyStr) :
    scanUnits (body ++ '"' :: rest) = .ok (u, rest) := by
  induction h with
  | nil => rw [List.nil_append, scanUnits]
  | plain h1 h2 h3 _ ih => rw [List.cons_append, scanUnits_literal h1 h2 h3, ih]; rfl
  | escape hx _ ih =>
    rw [List.cons_append, List.cons_append, scanUnits_simple (simpleEscape_ne_u hx) ((simpleEscape_iff _ _).2 ⟨_, hx, rfl⟩), ih]; rfl
  | hex ha hb hc hd _ ih =>
    simp only [List.cons_append]
    rw [scanUnits, (parseHex_four _ _ _ _ _).2 ⟨_, _, _, _, ha, hb, hc, hd, rfl⟩, ih]; rfl

theorem hexDigit_lt {c : Char} {n : Nat} (h : HexDigit c n) : n < 16 := by cases h <;> omega

theorem jsonUnits_lt {body : PyStr} {u : List Nat} (h : JsonUnits body u) : ∀ n ∈ u, n < 1114112 := by
  induction h with
  | nil => intro n hn; cases hn
  | plain _ _ _ _ ih => intro n hn; rcases List.mem_cons.1 hn with rfl | hn; exacts [char_lt _, ih n hn]
  | escape _ _ ih => intro n hn; rcases List.mem_cons.1 hn with rfl | hn; exacts [char_lt _, ih n hn]
  | hex ha hb hc hd _ ih =>
    intro n hn
    have := hexDigit_lt ha
    have := hexDigit_lt hb
    have := hexDigit_lt hc
    have := hexDigit_lt hd
    rcases List.mem_cons.1 hn with rfl | hn
    · omega
    · exact ih n hn

theorem toNat_ofNat_valid {n : Nat} (h : n < 1114112) (hs : ¬ (55296 ≤ n ∧ n ≤ 57343)) : (Char.ofNat n).toNat = n := by
  have hv : n.isValidChar := by simp only [Nat.isValidChar]; omega
  rw [Char.ofNat, dif_pos hv]
  rfl

theorem joinUnits_sound {u : List Nat} : ∀ {s : PyStr}, (∀ n ∈ u, n < 1114112) → joinUnits u = some s → UnitsDenote u s := by
  fun_induction joinUnits u with
  | case1 => intro s _ h; cases h; exact .nil
  | case2 n h1 m rest' h2 ih =>
    intro s hu h
    obtain ⟨t, ht, rfl⟩ := Option.map_eq_some_iff.1 h
    have := UnitsDenote.pair (c := Char.ofNat (65536 + (n - 55296) * 1024 + (m - 56320))) (ih (fun x hx => hu x (by simp [hx])) ht)
      (n - 55296) (m - 56320) (by omega) (by omega) (by rw [toNat_ofNat_valid (by omega) (by omega)]; omega)
    rwa [show 0xD800 + (n - 55296) = n by omega, show 0xDC00 + (m - 56320) = m by omega] at this
  | case3 => intro s _ h; cases h
  | case4 => intro s _ h; cases h
  | case5 => intro s _ h; cases h
  | case6 n rest h1 h2 ih =>
    intro s hu h
    obtain ⟨t, ht, rfl⟩ := Option.map_eq_some_iff.1 h
    have := UnitsDenote.single (c := Char.ofNat n) (ih (fun x hx => hu x (by simp [hx])) ht)
    rwa [toNat_ofNat_valid (hu n (by simp)) (by omega)] at this

theorem joinUnits_complete {u : List Nat} {s : PyStr} (h : UnitsDenote u s) : joinUnits u = some s := by
  induction h with
  | nil => rfl
  | @single c u s _ ih =>
    have hs := char_not_surrogate c
    rw [joinUnits.eq_def]
    dsimp only
    rw [if_neg (by omega), if_neg (by omega), ih]
    simp [Char.ofNat_toNat]
  | @pair c u s _ hi lo h1 h2 hc ih =>
    rw [joinUnits.eq_def]
    dsimp only
    rw [if_pos (by omega), if_pos (by omega), ih, Option.map_some, show 65536 + (0xD800 + hi - 55296) * 1024 + (0xDC00 + lo - 56320) = c.toNat by omega,
      Char.ofNat_toNat]

theorem parseJsonString_sound {s t rest : PyStr} (h : parseJsonString s = .ok (t, rest)) :
    ∃ k, '"' :: s = k ++ rest ∧ JsonString k t := by
  unfold parseJsonString at h
  split at h
  · cases h
  · rename_i u rest' h1
    split at h
    · cases h
    · rename_i h2
      cases h
      obtain ⟨body, rfl, hb⟩ := scanUnits_sound h1
      exact ⟨'"' :: (body ++ ['"']), by simp, .mk hb (joinUnits_sound (jsonUnits_lt hb) h2)⟩

theorem parseJsonString_complete {k t : PyStr} (h : JsonString k t) : ∃ k', k = '"' :: k' ∧ ∀ rest, parseJsonString (k' ++ rest) = .ok (t, rest) := by
  cases h with
  | @mk body s u h hu =>
    refine ⟨_, rfl, fun rest => ?_⟩
    rw [List.append_assoc, List.singleton_append, parseJsonString, scanUnits_complete h]
    dsimp only
    rw [joinUnits_complete hu]

/-! ## white space -/

theorem isJsonSpace_iff (c : Char) : isJsonSpace c = true ↔ c = ' ' ∨ c = '\t' ∨ c = '\n' ∨ c = '\r' := by
  simp [isJsonSpace, or_assoc]

theorem skip_blank {w : PyStr} (hw : JsonBlank w) (t : PyStr) : skipJsonSpace (w ++ t) = skipJsonSpace t := by
  induction w with
  | nil => rfl
  | cons c w ih =>
    have := (isJsonSpace_iff c).2 (hw c (by simp))
    rw [List.cons_append, skipJsonSpace, List.dropWhile_cons_of_pos this]
    exact ih fun x hx => hw x (by simp [hx])

theorem skip_split (s : PyStr) : ∃ w, s = w ++ skipJsonSpace s ∧ JsonBlank w :=
  ⟨s.takeWhile isJsonSpace, (List.takeWhile_append_dropWhile).symm, fun c hc => (isJsonSpace_iff c).1 (by
    have := List.all_takeWhile (p := isJsonSpace) (l := s)
    exact List.all_eq_true.1 this c hc)⟩

theorem jsonBlank_nil : JsonBlank [] := fun c hc => by cases hc

/-! ## numbers -/

/-- the text behind a value: nothing, white space, or a character that ends an item -/
def Stops (rest : PyStr) : Prop := ∀ c, rest.head? = some c → isJsonSpace c = true ∨ c = ',' ∨ c = ']' ∨ c = '}'

theorem stops_cases {c : Char} {t : PyStr} (h : Stops (c :: t)) :
    c = ' ' ∨ c = '\t' ∨ c = '\n' ∨ c = '\r' ∨ c = ',' ∨ c = ']' ∨ c = '}' := by
  have := h c rfl
  rw [isJsonSpace_iff] at this
  tauto

theorem stops_nil : Stops [] := fun c hc => by cases hc

theorem stops_blank {w : PyStr} (hw : JsonBlank w) {t : PyStr} (ht : Stops t) : Stops (w ++ t) := by
  cases w with
  | nil => exact ht
  | cons c w => intro d hd; cases hd; exact .inl ((isJsonSpace_iff c).2 (hw c (by simp)))

/-- the text does not go on with a digit -/
def NoDigit (rest : PyStr) : Prop := ∀ c, rest.head? = some c → isAsciiDigit c = false

theorem noDigit_stops {rest : PyStr} (hr : Stops rest) : NoDigit rest := by
  intro c hc
  cases rest with
  | nil => cases hc
  | cons d t => cases hc; rcases stops_cases hr with rfl | rfl | rfl | rfl | rfl | rfl | rfl <;> decide

theorem takeWhile_stops (s rest : PyStr) (hs : ∀ c ∈ s, isAsciiDigit c = true) (hr : NoDigit rest) :
    (s ++ rest).takeWhile isAsciiDigit = s ∧ (s ++ rest).dropWhile isAsciiDigit = rest := by
  induction s with
  | nil =>
    cases rest with
    | nil => exact ⟨rfl, rfl⟩
    | cons c t =>
      have : isAsciiDigit c = false := hr c rfl
      simp [this]
  | cons c s ih =>
    obtain ⟨h1, h2⟩ := ih fun x hx => hs x (by simp [hx])
    have := hs c (by simp)
    simp [this, h1, h2]

theorem isAsciiDigit_iff (c : Char) : isAsciiDigit c = true ↔ 48 ≤ c.toNat ∧ c.toNat ≤ 57 := by
  simp [isAsciiDigit]

theorem digitVal_ascii {c : Char} (h : 48 ≤ c.toNat ∧ c.toNat ≤ 57) : digitVal c = c.toNat - 48 := by
  have : ∀ n < 10, digitVal (Char.ofNat (48 + n)) = n := by decide
  have e : c = Char.ofNat (48 + (c.toNat - 48)) := charOfNat_of_toNat (by omega)
  rw [e, this _ (by omega), ← e]

theorem decToNat_eq {ds : PyStr} (h : ∀ x ∈ ds, 48 ≤ x.toNat ∧ x.toNat ≤ 57) : decToNat ds = decimalValue ds := by
  unfold decToNat decimalValue
  generalize 0 = n
  induction ds generalizing n with
  | nil => rfl
  | cons c ds ih => rw [List.foldl_cons, List.foldl_cons, digitVal_ascii (h c (by simp)), ih fun x hx => h x (by simp [hx])]

/-- the number with a sign -/
def signed (negative : Bool) (n : Nat) : Json := .num (if negative then - (n : Int) else n)

theorem takeWhile_ascii (s : PyStr) : ∀ x ∈ s.takeWhile isAsciiDigit, 48 ≤ x.toNat ∧ x.toNat ≤ 57 := fun x hx =>
  (isAsciiDigit_iff _).1 (List.all_eq_true.1 (List.all_takeWhile (p := isAsciiDigit) (l := s)) x hx)

theorem scanFraction_sound (s : PyStr) : ∃ f, s = f ++ (scanFraction s).2 ∧ JsonFraction f ((scanFraction s).1.getD []) ∧
    ((scanFraction s).1 = none ↔ f = []) := by
  unfold scanFraction
  split
  · rename_i c rest
    split
    · rename_i hc
      refine ⟨'.' :: c :: rest.takeWhile isAsciiDigit, ?_, .digits ⟨by simp, ?_⟩, by simp⟩
      · simp [List.takeWhile_append_dropWhile]
      · intro x hx
        rcases List.mem_cons.1 hx with rfl | hx
        · exact (isAsciiDigit_iff _).1 hc
        · exact takeWhile_ascii rest x hx
    · exact ⟨[], rfl, .missing, by simp⟩
  · exact ⟨[], rfl, .missing, by simp⟩

theorem exponentDigits_sound {b : Bool} {s rest : PyStr} {k : Int} (h : exponentDigits b s = some (k, rest)) :
    ∃ ds, s = ds ++ rest ∧ DecimalDigits ds ∧ k = if b then - (decimalValue ds : Int) else decimalValue ds := by
  unfold exponentDigits at h
  split at h
  · cases h
  · rename_i c ds he
    have := takeWhile_ascii s
    rw [he] at this
    cases h
    refine ⟨c :: ds, ?_, ⟨by simp, this⟩, by rw [decToNat_eq this]⟩
    rw [← he, List.takeWhile_append_dropWhile]

theorem scanExponent_sound (s : PyStr) : ∃ x, s = x ++ (scanExponent s).2 ∧ JsonExponent x ((scanExponent s).1.getD 0) ∧
    ((scanExponent s).1 = none ↔ x = []) := by
  unfold scanExponent
  split
  · rename_i c s
    split
    · rename_i hc
      split
      · rename_i k rest h
        unfold signedExponent at h
        split at h
        · obtain ⟨ds, rfl, hd, rfl⟩ := exponentDigits_sound h
          exact ⟨c :: '+' :: ds, rfl, .plus hc hd, by simp⟩
        · obtain ⟨ds, rfl, hd, rfl⟩ := exponentDigits_sound h
          exact ⟨c :: '-' :: ds, rfl, .minus hc hd, by simp⟩
        · obtain ⟨ds, rfl, hd, rfl⟩ := exponentDigits_sound h
          exact ⟨c :: ds, rfl, .plain hc hd, by simp⟩
      · exact ⟨[], rfl, .missing, by simp⟩
    · exact ⟨[], rfl, .missing, by simp⟩
  · exact ⟨[], rfl, .missing, by simp⟩

/-- a number behind its sign -/
inductive NumberText (b : Bool) : PyStr → Json → Prop
  | integer {ds : PyStr} (h : JsonDigits ds) : NumberText b ds (signed b (decimalValue ds))
  | decimal {t : PyStr} {q : ℚ} {v : PyFloat} (h : JsonDecimal t q) (hv : FloatOf b q v) : NumberText b t (.float v)

theorem jsonDigits_ascii {ds : PyStr} (h : JsonDigits ds) : ∀ x ∈ ds, 48 ≤ x.toNat ∧ x.toNat ≤ 57 := by
  rcases h with rfl | ⟨c, t, rfl, -, h⟩
  · intro x hx; cases List.mem_singleton.1 hx; decide
  · exact h

theorem jsonFraction_ascii {f fs : PyStr} (h : JsonFraction f fs) : ∀ x ∈ fs, 48 ≤ x.toNat ∧ x.toNat ≤ 57 := by
  cases h with
  | missing => intro x hx; cases hx
  | digits h => exact h.2

theorem decimal_append {ds f fs : PyStr} (h : JsonDigits ds) (hf : JsonFraction f fs) : decToNat (ds ++ fs) = decimalValue (ds ++ fs) :=
  decToNat_eq fun x hx => (List.mem_append.1 hx).elim (jsonDigits_ascii h x) (jsonFraction_ascii hf x)

theorem finishNumber_sound (b : Bool) {ds : PyStr} (hd : JsonDigits ds) (rest : PyStr) :
    ∃ t, ds ++ rest = t ++ (finishNumber b ds rest).2 ∧ NumberText b t (finishNumber b ds rest).1 := by
  obtain ⟨f, hf1, hf2, hf3⟩ := scanFraction_sound rest
  obtain ⟨x, hx1, hx2, hx3⟩ := scanExponent_sound (scanFraction rest).2
  unfold finishNumber
  dsimp only
  split
  · rw [decToNat_eq (jsonDigits_ascii hd)]
    exact ⟨ds, rfl, .integer hd⟩
  · rename_i hn
    refine ⟨ds ++ (f ++ x), ?_, .decimal (.mk hd hf2 hx2 ?_) ?_⟩
    · rw [List.append_assoc, List.append_assoc, ← hx1, ← hf1]
    · intro h
      obtain ⟨h1, h2⟩ := List.append_eq_nil_iff.1 h
      simp [hf3.2 h1, hx3.2 h2] at hn
    · rw [← decimal_append hd hf2]
      exact decimalToFloat_iff.2 rfl

theorem parseUnsigned_sound {b : Bool} {s rest : PyStr} {j : Json} (h : parseUnsigned b s = .ok (j, rest)) :
    ∃ t, s = t ++ rest ∧ NumberText b t j := by
  unfold parseUnsigned at h
  split at h
  · cases h
  · rename_i c r
    split at h
    · rename_i hc
      subst hc
      have := finishNumber_sound b (.inl rfl : JsonDigits ['0']) r
      rw [Except.ok.inj h] at this
      exact this
    · rename_i hc
      split at h
      · rename_i hd
        have hall : ∀ x ∈ c :: r.takeWhile isAsciiDigit, 48 ≤ x.toNat ∧ x.toNat ≤ 57 := by
          intro x hx
          rcases List.mem_cons.1 hx with rfl | hx
          · exact (isAsciiDigit_iff _).1 hd
          · exact takeWhile_ascii r x hx
        have := finishNumber_sound b (.inr ⟨c, _, rfl, hc, hall⟩ : JsonDigits (c :: r.takeWhile isAsciiDigit)) (r.dropWhile isAsciiDigit)
        rw [Except.ok.inj h, List.cons_append, List.takeWhile_append_dropWhile] at this
        exact this
      · cases h

theorem jsonDigits_head {ds : PyStr} (h : JsonDigits ds) : ∃ c t, ds = c :: t ∧ isAsciiDigit c = true := by
  rcases h with rfl | ⟨c, t, rfl, -, h⟩
  · exact ⟨'0', [], rfl, rfl⟩
  · exact ⟨c, t, rfl, (isAsciiDigit_iff c).2 (h c (by simp))⟩

theorem scanFraction_complete {f fs : PyStr} (h : JsonFraction f fs) {r : PyStr} (hr : NoDigit r) (hp : r.head? ≠ some '.') :
    scanFraction (f ++ r) = (if f = [] then none else some fs, r) := by
  cases h with
  | missing =>
    rw [if_pos rfl, List.nil_append]
    unfold scanFraction
    split
    · exact absurd rfl hp
    · rfl
  | digits h =>
    obtain ⟨hne, hd⟩ := h
    obtain ⟨c, ds, rfl⟩ := List.exists_cons_of_ne_nil hne
    obtain ⟨h6, h7⟩ := takeWhile_stops ds r (fun x hx => (isAsciiDigit_iff x).2 (hd x (by simp [hx]))) hr
    rw [if_neg (by simp), List.cons_append, List.cons_append, scanFraction, if_pos ((isAsciiDigit_iff c).2 (hd c (by simp))), h6, h7]

theorem exponentDigits_complete (b : Bool) {ds : PyStr} (h : DecimalDigits ds) {r : PyStr} (hr : NoDigit r) :
    exponentDigits b (ds ++ r) = some (if b then - (decimalValue ds : Int) else decimalValue ds, r) := by
  obtain ⟨hne, hd⟩ := h
  obtain ⟨h6, h7⟩ := takeWhile_stops ds r (fun x hx => (isAsciiDigit_iff x).2 (hd x hx)) hr
  obtain ⟨c, ds, rfl⟩ := List.exists_cons_of_ne_nil hne
  unfold exponentDigits
  rw [h6, h7, ← decToNat_eq hd]

theorem signedExponent_complete {ds : PyStr} (h : DecimalDigits ds) {r : PyStr} (hr : NoDigit r) :
    signedExponent (ds ++ r) = some ((decimalValue ds : Int), r) := by
  rw [show ((decimalValue ds : Int)) = if false then - (decimalValue ds : Int) else decimalValue ds from rfl, ← exponentDigits_complete false h hr]
  obtain ⟨hne, hd⟩ := h
  obtain ⟨c, ds, rfl⟩ := List.exists_cons_of_ne_nil hne
  have := hd c (by simp)
  unfold signedExponent
  rw [List.cons_append]
  split
  · rename_i he; cases he; exact absurd this (by decide)
  · rename_i he; cases he; exact absurd this (by decide)
  · rfl

theorem scanExponent_complete {x : PyStr} {k : Int} (h : JsonExponent x k) {r : PyStr} (hr : Stops r) :
    scanExponent (x ++ r) = (if x = [] then none else some k, r) := by
  have hn := noDigit_stops hr
  cases h with
  | missing =>
    rw [if_pos rfl, List.nil_append]
    cases r with
    | nil => rfl
    | cons c t => rcases stops_cases hr with rfl | rfl | rfl | rfl | rfl | rfl | rfl <;> rfl
  | plain hc h => rw [if_neg (by simp), List.cons_append, scanExponent, if_pos hc, signedExponent_complete h hn]
  | plus hc h =>
    rw [if_neg (by simp), List.cons_append, scanExponent, if_pos hc, List.cons_append, signedExponent, exponentDigits_complete false h hn]
    rfl
  | minus hc h =>
    rw [if_neg (by simp), List.cons_append, scanExponent, if_pos hc, List.cons_append, signedExponent, exponentDigits_complete true h hn]
    rfl

theorem exponent_head {x : PyStr} {k : Int} (h : JsonExponent x k) {r : PyStr} (hr : Stops r) :
    NoDigit (x ++ r) ∧ (x ++ r).head? ≠ some '.' := by
  have he : ∀ (c : Char) (t : PyStr), c = 'e' ∨ c = 'E' → NoDigit (c :: t) ∧ (c :: t).head? ≠ some '.' := by
    intro c t hc
    refine ⟨fun d hd => ?_, fun hd => ?_⟩
    · cases hd; rcases hc with rfl | rfl <;> decide
    · cases hd; revert hc; decide
  cases h with
  | missing =>
    refine ⟨noDigit_stops hr, ?_⟩
    cases r with
    | nil => simp
    | cons c t => intro h; cases h; have := stops_cases hr; revert this; decide
  | plain hc h => exact he _ _ hc
  | plus hc h => exact he _ _ hc
  | minus hc h => exact he _ _ hc

theorem finishNumber_complete (b : Bool) {ds f fs x : PyStr} {k : Int} (h : JsonDigits ds) (hf : JsonFraction f fs) (hx : JsonExponent x k)
    {rest : PyStr} (hr : Stops rest) : finishNumber b ds (f ++ (x ++ rest)) =
      (if f ++ x = [] then signed b (decimalValue ds) else .float (decimalToFloat b (decimalValue (ds ++ fs)) (k - fs.length)), rest) := by
  obtain ⟨h1, h2⟩ := exponent_head hx hr
  unfold finishNumber
  rw [scanFraction_complete hf h1 h2]
  dsimp only
  rw [scanExponent_complete hx hr]
  dsimp only
  by_cases hfe : f = []
  · by_cases hxe : x = []
    · subst hfe; subst hxe
      rw [decToNat_eq (jsonDigits_ascii h)]; rfl
    · subst hfe
      cases hf
      rw [if_pos rfl, if_neg hxe, if_neg (by simp), if_neg (by simpa using hxe)]
      dsimp only [Option.getD]
      rw [decimal_append h .missing]
  · have hk : (if x = [] then none else some k).getD 0 = k := by
      by_cases hxe : x = []
      · subst hxe; cases hx; rfl
      · rw [if_neg hxe]; rfl
    rw [hk, if_neg hfe, if_neg (show ¬ f ++ x = [] by simp [hfe])]
    dsimp only [Option.getD_some, Option.isNone, Bool.false_and]
    rw [if_neg (by simp), decimal_append h hf]

theorem parseUnsigned_digits (b : Bool) {ds : PyStr} (h : JsonDigits ds) {rest : PyStr} (hr : NoDigit rest) :
    parseUnsigned b (ds ++ rest) = .ok (finishNumber b ds rest) := by
  rcases h with rfl | ⟨c, t, rfl, hc, h⟩
  · rw [List.singleton_append, parseUnsigned, if_pos rfl]
  · obtain ⟨h6, h7⟩ := takeWhile_stops t rest (fun x hx => (isAsciiDigit_iff x).2 (h x (by simp [hx]))) hr
    rw [List.cons_append, parseUnsigned, if_neg hc, if_pos ((isAsciiDigit_iff c).2 (h c (by simp))), h6, h7]

theorem parseUnsigned_complete (b : Bool) {t : PyStr} {j : Json} (h : NumberText b t j) {rest : PyStr} (hr : Stops rest) :
    parseUnsigned b (t ++ rest) = .ok (j, rest) := by
  cases h with
  | integer h =>
    rw [parseUnsigned_digits b h (noDigit_stops hr)]
    exact congrArg Except.ok (finishNumber_complete b h .missing .missing hr)
  | decimal h hv =>
    cases h with
    | mk h hf hx hne =>
      rename_i ds f fs x k
      rw [List.append_assoc, List.append_assoc, parseUnsigned_digits b h, finishNumber_complete b h hf hx hr, if_neg hne,
        decimalToFloat_iff.1 hv]
      cases hf with
      | missing => exact (exponent_head hx hr).1
      | digits _ => intro c hc; cases hc; decide

theorem numberText_head {b : Bool} {t : PyStr} {j : Json} (h : NumberText b t j) : ∃ c s, t = c :: s ∧ isAsciiDigit c = true := by
  cases h with
  | integer h => exact jsonDigits_head h
  | decimal h hv =>
    cases h with
    | mk h hf hx hne => obtain ⟨c, s, rfl, hc⟩ := jsonDigits_head h; exact ⟨c, _, rfl, hc⟩

theorem parseScalar_sound {s rest : PyStr} {j : Json} (h : parseScalar s = .ok (j, rest)) : ∃ t, s = t ++ rest ∧ JsonValue t j := by
  have hp : ∀ w : PyStr, w.isPrefixOf s = true → s = w ++ s.drop w.length := by
    intro w hw
    obtain ⟨t, rfl⟩ := List.isPrefixOf_iff_prefix.1 hw
    rw [List.drop_left]
  unfold parseScalar at h
  split at h
  · rename_i h1; cases h; exact ⟨_, hp _ h1, .null⟩
  split at h
  · rename_i h1; cases h; exact ⟨_, hp _ h1, .true⟩
  split at h
  · rename_i h1; cases h; exact ⟨_, hp _ h1, .false⟩
  split at h
  · rename_i h1; cases h; exact ⟨_, hp _ h1, .nan⟩
  split at h
  · rename_i h1; cases h; exact ⟨_, hp _ h1, .infinity⟩
  split at h
  · rename_i h1; cases h; exact ⟨_, hp _ h1, .negativeInfinity⟩
  split at h
  · obtain ⟨t, rfl, hd⟩ := parseUnsigned_sound h
    cases hd with
    | integer hd => exact ⟨_, rfl, .negative hd⟩
    | decimal hd hv => exact ⟨_, rfl, .negativeFloat hd hv⟩
  · obtain ⟨t, rfl, hd⟩ := parseUnsigned_sound h
    cases hd with
    | integer hd => exact ⟨_, rfl, .integer hd⟩
    | decimal hd hv => exact ⟨_, rfl, .float hd hv⟩

theorem parseScalar_positive {t : PyStr} {j : Json} (h : NumberText false t j) {rest : PyStr} (hr : Stops rest) :
    parseScalar (t ++ rest) = .ok (j, rest) := by
  obtain ⟨c, t, e, hc⟩ := numberText_head h
  have h1 := parseUnsigned_complete false h hr
  rw [e] at h1 ⊢
  unfold parseScalar
  have hm : c ≠ '-' := by rintro rfl; cases hc
  simp only [List.cons_append, digit_not_prefix hc 'n' (by decide), digit_not_prefix hc 't' (by decide), digit_not_prefix hc 'f' (by decide),
    digit_not_prefix hc 'N' (by decide), digit_not_prefix hc 'I' (by decide), digit_not_prefix hc '-' (by decide)]
  simp only [Bool.false_eq_true, if_false]
  split
  · rename_i he; cases he; exact absurd rfl hm
  · exact h1

theorem parseScalar_negative {ds : PyStr} {j : Json} (h : NumberText true ds j) {rest : PyStr} (hr : Stops rest) :
    parseScalar ('-' :: (ds ++ rest)) = .ok (j, rest) := by
  obtain ⟨c, t, e, hc⟩ := numberText_head h
  have h1 := parseUnsigned_complete true h hr
  have hI : 'I' ≠ c := by rintro rfl; cases hc
  unfold parseScalar
  have h2 : py!"-Infinity".isPrefixOf ('-' :: (ds ++ rest)) = false := by
    rw [e]; simp [List.isPrefixOf, hI]
  rw [h2]
  simp only [List.isPrefixOf, show ('n' == '-') = false from rfl, show ('t' == '-') = false from rfl, show ('f' == '-') = false from rfl,
    show ('N' == '-') = false from rfl, show ('I' == '-') = false from rfl, Bool.false_and, Bool.false_eq_true, if_false]
  exact h1

/-! ## dictionaries -/

theorem keys_dictSet (k : PyStr) (v : Json) (d : List (PyStr × Json)) :
    (dictSet k v d).map Prod.fst = if k ∈ d.map Prod.fst then d.map Prod.fst else d.map Prod.fst ++ [k] := by
  induction d with
  | nil => rfl
  | cons p d ih =>
    obtain ⟨k', v'⟩ := p
    unfold dictSet
    split
    · rename_i h; subst h; simp
    · rename_i h
      have : ¬ k = k' := fun e => h e.symm
      simp only [List.map_cons, ih, List.mem_cons, this, false_or]
      split <;> simp

theorem eraseDups_concat (l : List PyStr) (k : PyStr) : (l ++ [k]).eraseDups = if k ∈ l then l.eraseDups else l.eraseDups ++ [k] := by
  rw [List.eraseDups_append]
  by_cases h : k ∈ l
  · rw [if_pos h]
    have : [k].removeAll l = [] := by simp [List.removeAll, h]
    rw [this]; simp
  · rw [if_neg h]
    have : [k].removeAll l = [k] := by simp [List.removeAll, h]
    rw [this]; simp [List.eraseDups_cons]

theorem keys_dictUpdate (ms : List (PyStr × Json)) : (dictUpdate [] ms).map Prod.fst = (ms.map Prod.fst).eraseDups := by
  induction ms using List.reverseRecOn with
  | nil => rfl
  | append_singleton ms m ih =>
    rw [dictUpdate_append]
    change (dictSet m.1 m.2 _).map Prod.fst = _
    rw [keys_dictSet, ih, List.map_append, List.map_cons, List.map_nil, eraseDups_concat]
    simp only [List.mem_eraseDups]

theorem dictOfMembers_dictUpdate (ms : List (PyStr × Json)) : DictOfMembers ms (dictUpdate [] ms) :=
  ⟨keys_dictUpdate ms, fun _ _ h => (mem_dictUpdate ms).1 h⟩

theorem eq_of_keys : ∀ {d d' : List (PyStr × Json)}, d.map Prod.fst = d'.map Prod.fst → (d'.map Prod.fst).Nodup → (∀ k v, (k, v) ∈ d → (k, v) ∈ d') → d = d'
  | [], [], _, _, _ => rfl
  | [], _ :: _, h, _, _ => by cases h
  | _ :: _, [], h, _, _ => by cases h
  | (k, v) :: d, (k', v') :: d', h, hn, hm => by
    simp only [List.map_cons, List.cons.injEq] at h
    obtain ⟨rfl, h⟩ := h
    simp only [List.map_cons, List.nodup_cons] at hn
    have hv : v = v' := by
      rcases List.mem_cons.1 (hm k v (by simp)) with e | e
      · cases e; rfl
      · exact absurd (List.mem_map.2 ⟨_, e, rfl⟩) hn.1
    subst hv
    rw [eq_of_keys h hn.2 fun k1 v1 h1 => ?_]
    rcases List.mem_cons.1 (hm k1 v1 (by simp [h1])) with e | e
    · cases e
      refine absurd ?_ hn.1
      rw [← h]
      exact List.mem_map.2 ⟨_, h1, rfl⟩
    · exact e

theorem dictOfMembers_iff (ms d : List (PyStr × Json)) : DictOfMembers ms d ↔ d = dictUpdate [] ms := by
  constructor
  · rintro ⟨h1, h2⟩
    refine eq_of_keys (h1.trans (keys_dictUpdate ms).symm) (nodup_dictUpdate (by simp)) fun k v h => ?_
    exact (mem_dictUpdate ms).2 (h2 k v h)
  · rintro rfl; exact dictOfMembers_dictUpdate ms

/-! ## soundness -/

theorem parse_sound (fuel : Nat) :
    (∀ (s : PyStr) (j : Json) (rest : PyStr), parseJsonValue fuel s = .ok (j, rest) → ∃ t, s = t ++ rest ∧ JsonValue t j) ∧
    (∀ (s : PyStr) (l : List Json) (rest : PyStr), parseJsonItems fuel s = .ok (l, rest) →
      ∃ t, s = t ++ ']' :: rest ∧ JsonItems t l) ∧
    (∀ (s : PyStr) (l : List (PyStr × Json)) (rest : PyStr), parseJsonMembers fuel s = .ok (l, rest) →
      ∃ t, '"' :: s = t ++ '}' :: rest ∧ JsonMembers t l) := by
  induction fuel with
  | zero =>
    exact ⟨fun s j rest h => (by rw [parseJsonValue] at h; cases h), fun s j rest h => (by rw [parseJsonItems] at h; cases h),
      fun s j rest h => (by rw [parseJsonMembers] at h; cases h)⟩
  | succ fuel ih =>
    obtain ⟨ihv, ihi, ihm⟩ := ih
    refine ⟨fun s j rest h => ?_, fun s l rest h => ?_, fun s l rest h => ?_⟩
    · rw [parseJsonValue.eq_def] at h
      dsimp only at h
      split at h
      · rename_i r
        obtain ⟨⟨t, r'⟩, h1, h2⟩ := map_ok h
        cases h2
        obtain ⟨k, hk, hs⟩ := parseJsonString_sound h1
        exact ⟨k, hk, .string hs⟩
      · rename_i r
        obtain ⟨w, hw, hb⟩ := skip_split r
        split at h
        · rename_i rest' he
          cases h
          rw [he] at hw
          exact ⟨'[' :: (w ++ [']']), by rw [hw]; simp, .emptyArray hb⟩
        · obtain ⟨⟨l, r'⟩, h1, h2⟩ := map_ok h
          cases h2
          obtain ⟨t, ht, hi⟩ := ihi _ _ _ h1
          rw [ht] at hw
          refine ⟨'[' :: ((w ++ t) ++ [']']), by rw [hw]; simp, .array ?_⟩
          cases hi with
          | last hw1 hv hw2 => rw [← List.append_assoc]; exact .last (fun c hc => (List.mem_append.1 hc).elim (hb c) (hw1 c)) hv hw2
          | cons hw1 hv hw2 hl => rw [← List.append_assoc]; exact .cons (fun c hc => (List.mem_append.1 hc).elim (hb c) (hw1 c)) hv hw2 hl
      · rename_i r
        obtain ⟨w, hw, hb⟩ := skip_split r
        split at h
        · rename_i rest' he
          cases h
          rw [he] at hw
          exact ⟨'{' :: (w ++ ['}']), by rw [hw]; simp, .emptyObject hb⟩
        · rename_i rest' he
          obtain ⟨⟨l, r'⟩, h1, h2⟩ := map_ok h
          cases h2
          obtain ⟨t, ht, hi⟩ := ihm _ _ _ h1
          rw [he, ht] at hw
          refine ⟨'{' :: ((w ++ t) ++ ['}']), by rw [hw]; simp, .object ?_ (dictOfMembers_dictUpdate l)⟩
          cases hi with
          | last hw1 hk b1 b2 hv b3 =>
            rw [← List.append_assoc]; exact .last (fun c hc => (List.mem_append.1 hc).elim (hb c) (hw1 c)) hk b1 b2 hv b3
          | cons hw1 hk b1 b2 hv b3 hl =>
            rw [← List.append_assoc]; exact .cons (fun c hc => (List.mem_append.1 hc).elim (hb c) (hw1 c)) hk b1 b2 hv b3 hl
        · cases h
      · exact parseScalar_sound h
    · rw [parseJsonItems] at h
      split at h
      · cases h
      · rename_i v r h1
        obtain ⟨t, rfl, hv⟩ := ihv _ _ _ h1
        obtain ⟨w, hw, hb⟩ := skip_split r
        split at h
        · rename_i r' he
          cases h
          rw [he] at hw
          exact ⟨t ++ w, by rw [hw]; simp, .last (w := []) jsonBlank_nil hv hb⟩
        · rename_i r' he
          obtain ⟨⟨l, r2⟩, h2, h3⟩ := map_ok h
          cases h3
          obtain ⟨w', hw', hb'⟩ := skip_split r'
          obtain ⟨t', ht', hi⟩ := ihi _ _ _ h2
          rw [ht'] at hw'
          rw [he, hw'] at hw
          refine ⟨t ++ (w ++ ',' :: (w' ++ t')), by rw [hw]; simp, .cons (w := []) jsonBlank_nil hv hb ?_⟩
          cases hi with
          | last hw1 hv hw2 => rw [← List.append_assoc]; exact .last (fun c hc => (List.mem_append.1 hc).elim (hb' c) (hw1 c)) hv hw2
          | cons hw1 hv hw2 hl => rw [← List.append_assoc]; exact .cons (fun c hc => (List.mem_append.1 hc).elim (hb' c) (hw1 c)) hv hw2 hl
        · cases h
    · rw [parseJsonMembers] at h
      split at h
      · cases h
      · rename_i k r h1
        obtain ⟨kt, hkt, hks⟩ := parseJsonString_sound h1
        obtain ⟨w1, hw1, hb1⟩ := skip_split r
        split at h
        · rename_i r1 he1
          rw [he1] at hw1
          obtain ⟨w2, hw2, hb2⟩ := skip_split r1
          split at h
          · cases h
          · rename_i v r2 h2
            obtain ⟨t, ht, hv⟩ := ihv _ _ _ h2
            rw [ht] at hw2
            obtain ⟨w3, hw3, hb3⟩ := skip_split r2
            split at h
            · rename_i r3 he3
              cases h
              rw [he3] at hw3
              refine ⟨kt ++ (w1 ++ ':' :: (w2 ++ (t ++ w3))), ?_, .last (w := []) jsonBlank_nil hks hb1 hb2 hv hb3⟩
              rw [hkt, hw1, hw2, hw3]; simp
            · rename_i r3 he3
              rw [he3] at hw3
              obtain ⟨w4, hw4, hb4⟩ := skip_split r3
              split at h
              · rename_i r4 he4
                obtain ⟨⟨l, r5⟩, h4, h5⟩ := map_ok h
                cases h5
                obtain ⟨t', ht', hi⟩ := ihm _ _ _ h4
                rw [he4, ht'] at hw4
                refine ⟨kt ++ (w1 ++ ':' :: (w2 ++ (t ++ (w3 ++ ',' :: (w4 ++ t'))))), ?_, .cons (w := []) jsonBlank_nil hks hb1 hb2 hv hb3 ?_⟩
                · rw [hkt, hw1, hw2, hw3, hw4]; simp
                cases hi with
                | last hw1 hk h1 h2 hv h3 =>
                  rw [← List.append_assoc]; exact .last (fun c hc => (List.mem_append.1 hc).elim (hb4 c) (hw1 c)) hk h1 h2 hv h3
                | cons hw1 hk h1 h2 hv h3 hl =>
                  rw [← List.append_assoc]; exact .cons (fun c hc => (List.mem_append.1 hc).elim (hb4 c) (hw1 c)) hk h1 h2 hv h3 hl
              · cases h
            · cases h
        · cases h

/-! ## completeness -/

theorem jsonString_head {k t : PyStr} (h : JsonString k t) : ∃ k', k = '"' :: k' := by
  obtain ⟨k', hk, _⟩ := parseJsonString_complete h
  exact ⟨k', hk⟩

theorem jsonValue_head {t : PyStr} {j : Json} (h : JsonValue t j) : ∃ c s, t = c :: s ∧ isJsonSpace c = false ∧ c ≠ ']' ∧ c ≠ '}' ∧ c ≠ '\uFEFF' := by
  have hd : ∀ c, isAsciiDigit c = true → isJsonSpace c = false ∧ c ≠ ']' ∧ c ≠ '}' ∧ c ≠ '\uFEFF' := by
    intro c hc
    refine ⟨?_, ?_, ?_, ?_⟩
    · rw [Bool.eq_false_iff, Ne, isJsonSpace_iff]
      rintro (rfl | rfl | rfl | rfl) <;> cases hc
    · rintro rfl; cases hc
    · rintro rfl; cases hc
    · rintro rfl; cases hc
  cases h with
  | null => exact ⟨_, _, rfl, by decide⟩
  | true => exact ⟨_, _, rfl, by decide⟩
  | false => exact ⟨_, _, rfl, by decide⟩
  | integer h => obtain ⟨c, t, rfl, hc⟩ := jsonDigits_head h; exact ⟨c, t, rfl, hd c hc⟩
  | negative h => exact ⟨_, _, rfl, by decide⟩
  | float h hv => obtain ⟨c, t, rfl, hc⟩ := numberText_head (.decimal h hv); exact ⟨c, t, rfl, hd c hc⟩
  | negativeFloat h hv => exact ⟨_, _, rfl, by decide⟩
  | nan => exact ⟨_, _, rfl, by decide⟩
  | infinity => exact ⟨_, _, rfl, by decide⟩
  | negativeInfinity => exact ⟨_, _, rfl, by decide⟩
  | string h => obtain ⟨k, rfl⟩ := jsonString_head h; exact ⟨_, _, rfl, by decide⟩
  | emptyArray _ => exact ⟨_, _, rfl, by decide⟩
  | array _ => exact ⟨_, _, rfl, by decide⟩
  | emptyObject _ => exact ⟨_, _, rfl, by decide⟩
  | object _ _ => exact ⟨_, _, rfl, by decide⟩

theorem skip_value {t : PyStr} {j : Json} (h : JsonValue t j) (rest : PyStr) : skipJsonSpace (t ++ rest) = t ++ rest := by
  obtain ⟨c, s, rfl, hc, _⟩ := jsonValue_head h
  exact skip_cons hc _

theorem stops_cons {c : Char} (h : c = ',' ∨ c = ']' ∨ c = '}') (t : PyStr) : Stops (c :: t) := by
  intro d hd; cases hd; exact .inr h

/-- the parser accepts this text as this value, whatever follows -/
def Accepts (t : PyStr) (j : Json) : Prop :=
  ∃ n, ∀ fuel, n ≤ fuel → ∀ rest, Stops rest → parseJsonValue fuel (t ++ rest) = .ok (j, rest)
/-- the same for items, without the leading white space -/
def AcceptsItems (t : PyStr) (l : List Json) : Prop :=
  (∀ x, ∃ c s, skipJsonSpace (t ++ x) = c :: s ∧ c ≠ ']') ∧
  ∃ n, ∀ fuel, n ≤ fuel → ∀ rest, parseJsonItems fuel (skipJsonSpace (t ++ ']' :: rest)) = .ok (l, rest)
/-- the same for members, without the leading white space -/
def AcceptsMembers (t : PyStr) (l : List (PyStr × Json)) : Prop :=
  ∃ s, skipJsonSpace t = '"' :: s ∧ (∀ x, skipJsonSpace (t ++ x) = '"' :: (s ++ x)) ∧
  ∃ n, ∀ fuel, n ≤ fuel → ∀ rest, parseJsonMembers fuel (s ++ '}' :: rest) = .ok (l, rest)

theorem accepts_scalar {t : PyStr} {j : Json} (hh : ∃ c s, t = c :: s ∧ c ≠ '"' ∧ c ≠ '[' ∧ c ≠ '{')
    (h : ∀ rest, Stops rest → parseScalar (t ++ rest) = .ok (j, rest)) : Accepts t j := by
  refine ⟨1, fun fuel hf rest hr => ?_⟩
  obtain ⟨f, rfl⟩ : ∃ f, fuel = f + 1 := ⟨fuel - 1, by omega⟩
  obtain ⟨c, s, rfl, h1, h2, h3⟩ := hh
  rw [← h rest hr, List.cons_append, parseJsonValue.eq_def]
  dsimp only
  split
  · rename_i he; cases he; exact absurd rfl h1
  · rename_i he; cases he; exact absurd rfl h2
  · rename_i he; cases he; exact absurd rfl h3
  · rfl

theorem parseJsonMembers_step {f : Nat} {s k r r1 r2 : PyStr} {v : Json} (h1 : parseJsonString s = .ok (k, r))
    (h2 : skipJsonSpace r = ':' :: r1) (h3 : parseJsonValue f (skipJsonSpace r1) = .ok (v, r2)) :
    parseJsonMembers (f + 1) s =
      match skipJsonSpace r2 with
      | '}' :: rest3 => .ok ([(k, v)], rest3)
      | ',' :: rest3 =>
        match skipJsonSpace rest3 with
        | '"' :: rest4 => (parseJsonMembers f rest4).map fun x => ((k, v) :: x.1, x.2)
        | _ => .error .valueError
      | _ => .error .valueError := by
  rw [parseJsonMembers, h1]
  dsimp only
  split
  · rename_i r' he
    rw [h2] at he
    cases he
    rw [h3]
    rfl
  · rename_i hne
    exact absurd h2 (hne _)

mutual
theorem accepts : ∀ {t : PyStr} {j : Json}, JsonValue t j → Accepts t j
  | _, _, .null => accepts_scalar ⟨_, _, rfl, by decide, by decide, by decide⟩ fun rest _ => by rfl
  | _, _, .true => accepts_scalar ⟨_, _, rfl, by decide, by decide, by decide⟩ fun rest _ => by rfl
  | _, _, .false => accepts_scalar ⟨_, _, rfl, by decide, by decide, by decide⟩ fun rest _ => by rfl
  | _, _, .integer h => by
    obtain ⟨c, t, e, hc⟩ := jsonDigits_head h
    exact accepts_scalar ⟨c, t, e, (by rintro rfl; cases hc), (by rintro rfl; cases hc), (by rintro rfl; cases hc)⟩ fun rest hr =>
      parseScalar_positive (.integer h) hr
  | _, _, .negative h => accepts_scalar ⟨_, _, rfl, by decide, by decide, by decide⟩ fun rest hr => parseScalar_negative (.integer h) hr
  | _, _, .float h hv => by
    obtain ⟨c, t, e, hc⟩ := numberText_head (.decimal h hv)
    exact accepts_scalar ⟨c, t, e, (by rintro rfl; cases hc), (by rintro rfl; cases hc), (by rintro rfl; cases hc)⟩ fun rest hr =>
      parseScalar_positive (.decimal h hv) hr
  | _, _, .negativeFloat h hv => accepts_scalar ⟨_, _, rfl, by decide, by decide, by decide⟩ fun rest hr =>
      parseScalar_negative (.decimal h hv) hr
  | _, _, .nan => accepts_scalar ⟨_, _, rfl, by decide, by decide, by decide⟩ fun rest _ => by rfl
  | _, _, .infinity => accepts_scalar ⟨_, _, rfl, by decide, by decide, by decide⟩ fun rest _ => by rfl
  | _, _, .negativeInfinity => accepts_scalar ⟨_, _, rfl, by decide, by decide, by decide⟩ fun rest _ => by rfl
  | _, _, .string h => by
    obtain ⟨k, rfl, hk⟩ := parseJsonString_complete h
    refine ⟨1, fun fuel hf rest hr => ?_⟩
    obtain ⟨f, rfl⟩ : ∃ f, fuel = f + 1 := ⟨fuel - 1, by omega⟩
    rw [List.cons_append, parseJsonValue, hk]
    rfl
  | _, _, .emptyArray hw => by
    refine ⟨1, fun fuel hf rest hr => ?_⟩
    obtain ⟨f, rfl⟩ : ∃ f, fuel = f + 1 := ⟨fuel - 1, by omega⟩
    rw [List.cons_append, parseJsonValue, List.append_assoc, skip_blank hw, List.singleton_append, skip_cons (by decide)]
    rfl
  | _, _, .array hi => by
    obtain ⟨hh, n, hn⟩ := acceptsItems hi
    refine ⟨n + 1, fun fuel hf rest hr => ?_⟩
    obtain ⟨f, rfl⟩ : ∃ f, fuel = f + 1 := ⟨fuel - 1, by omega⟩
    rw [List.cons_append, parseJsonValue, List.append_assoc, List.singleton_append]
    have h1 := hn f (by omega) rest
    split
    · rename_i he
      obtain ⟨c, s, hc, hne⟩ := hh (']' :: rest)
      rw [hc] at he
      cases he
      exact absurd rfl hne
    · rw [h1]; rfl
  | _, _, .emptyObject hw => by
    refine ⟨1, fun fuel hf rest hr => ?_⟩
    obtain ⟨f, rfl⟩ : ∃ f, fuel = f + 1 := ⟨fuel - 1, by omega⟩
    rw [List.cons_append, parseJsonValue, List.append_assoc, skip_blank hw, List.singleton_append, skip_cons (by decide)]
    rfl
  | _, _, .object hm hd => by
    obtain ⟨s, _, hs, n, hn⟩ := acceptsMembers hm
    refine ⟨n + 1, fun fuel hf rest hr => ?_⟩
    obtain ⟨f, rfl⟩ : ∃ f, fuel = f + 1 := ⟨fuel - 1, by omega⟩
    rw [List.cons_append, parseJsonValue, List.append_assoc, List.singleton_append, hs]
    change (parseJsonMembers f _).map _ = _
    rw [hn f (by omega) rest, (dictOfMembers_iff _ _).1 hd]
    rfl
theorem acceptsItems : ∀ {t : PyStr} {l : List Json}, JsonItems t l → AcceptsItems t l
  | _, _, .last (w := w) (t := t) (w' := w') hw h hw' => by
    obtain ⟨n, hn⟩ := accepts h
    refine ⟨?_, n + 1, fun fuel hf rest => ?_⟩
    · intro x
      obtain ⟨c, s, e, _, hc, _⟩ := jsonValue_head h
      rw [List.append_assoc, List.append_assoc, skip_blank hw, skip_value h, e]
      exact ⟨c, _, rfl, hc⟩
    · obtain ⟨f, rfl⟩ : ∃ f, fuel = f + 1 := ⟨fuel - 1, by omega⟩
      rw [List.append_assoc, List.append_assoc, skip_blank hw, skip_value h, parseJsonItems,
        hn f (by omega) _ (stops_blank hw' (stops_cons (by simp) _))]
      dsimp only
      rw [skip_blank hw', skip_cons (by decide)]
      rfl
  | _, _, .cons (w := w) (t := t) (w' := w') (t' := t') hw h hw' hl => by
    obtain ⟨n, hn⟩ := accepts h
    obtain ⟨_, m, hm⟩ := acceptsItems hl
    refine ⟨?_, n + m + 1, fun fuel hf rest => ?_⟩
    · intro x
      obtain ⟨c, s, e, _, hc, _⟩ := jsonValue_head h
      rw [List.append_assoc, List.append_assoc, skip_blank hw, skip_value h, e]
      exact ⟨c, _, rfl, hc⟩
    · obtain ⟨f, rfl⟩ : ∃ f, fuel = f + 1 := ⟨fuel - 1, by omega⟩
      simp only [List.append_assoc, List.cons_append]
      rw [skip_blank hw, skip_value h, parseJsonItems, hn f (by omega) _ (stops_blank hw' (stops_cons (by simp) _))]
      dsimp only
      rw [skip_blank hw', skip_cons (by decide)]
      change (parseJsonItems f (skipJsonSpace _)).map _ = _
      rw [hm f (by omega)]
      rfl
theorem acceptsMembers : ∀ {t : PyStr} {l : List (PyStr × Json)}, JsonMembers t l → AcceptsMembers t l
  | _, _, .last (w := w) hw hk h1 h2 h h3 => by
    obtain ⟨n, hn⟩ := accepts h
    obtain ⟨k, rfl, hk'⟩ := parseJsonString_complete hk
    refine ⟨_, by rw [skip_blank hw, List.cons_append, skip_cons (by decide)], fun x => by
      rw [List.append_assoc, skip_blank hw, List.cons_append, List.cons_append, skip_cons (by decide)], n + 1, fun fuel hf rest => ?_⟩
    obtain ⟨f, rfl⟩ : ∃ f, fuel = f + 1 := ⟨fuel - 1, by omega⟩
    simp only [List.append_assoc, List.cons_append]
    rw [parseJsonMembers_step (hk' _) (by rw [skip_blank h1, skip_cons (by decide)])
      (by rw [skip_blank h2, skip_value h, hn f (by omega) _ (stops_blank h3 (stops_cons (by simp) _))])]
    rw [skip_blank h3, skip_cons (by decide)]
    rfl
  | _, _, .cons (w := w) hw hk h1 h2 h h3 hl => by
    obtain ⟨n, hn⟩ := accepts h
    obtain ⟨k, rfl, hk'⟩ := parseJsonString_complete hk
    obtain ⟨s', _, hs', m, hm⟩ := acceptsMembers hl
    refine ⟨_, by rw [skip_blank hw, List.cons_append, skip_cons (by decide)], fun x => by
      rw [List.append_assoc, skip_blank hw, List.cons_append, List.cons_append, skip_cons (by decide)], n + m + 1, fun fuel hf rest => ?_⟩
    obtain ⟨f, rfl⟩ : ∃ f, fuel = f + 1 := ⟨fuel - 1, by omega⟩
    simp only [List.append_assoc, List.cons_append]
    rw [parseJsonMembers_step (hk' _) (by rw [skip_blank h1, skip_cons (by decide)])
      (by rw [skip_blank h2, skip_value h, hn f (by omega) _ (stops_blank h3 (stops_cons (by simp) _))])]
    rw [skip_blank h3, skip_cons (by decide)]
    change (match skipJsonSpace (_ ++ '}' :: rest) with
      | '"' :: rest4 => (parseJsonMembers f rest4).map _
      | _ => .error .valueError) = _
    rw [hs']
    change (parseJsonMembers f _).map _ = _
    rw [hm f (by omega)]
    rfl
end

/-! ## documents -/

theorem jsonLoads_sound {text : PyStr} {j : Json} (h : jsonLoads text = .ok j) : JsonDocument text j := by
  unfold jsonLoads at h
  split at h
  · cases h
  split at h
  · cases h
  · rename_i j' rest he
    split at h
    · cases h
      obtain ⟨w, hw, hb⟩ := skip_split text
      obtain ⟨t, ht, hv⟩ := (parse_sound _).1 _ _ _ he
      obtain ⟨w', hw', hb'⟩ := skip_split rest
      rename_i hr
      rw [List.isEmpty_iff.1 hr, List.append_nil] at hw'
      exact ⟨w, t, w', by rw [← hw']; rw [← hw']  at hb'; rw [hw, ht], hb, hv, hb'⟩
    · cases h

theorem jsonLoads_complete {text : PyStr} {j : Json} (h : JsonDocument text j) : jsonLoads text = .ok j := by
  obtain ⟨w, t, w', rfl, hb, hv, hb'⟩ := h
  have hs : skipJsonSpace (w ++ (t ++ w')) = t ++ w' := by rw [skip_blank hb, skip_value hv]
  unfold jsonLoads
  rw [if_neg ?_]
  · obtain ⟨n, hn⟩ := accepts hv
    have hf : parseJsonValue (2 * (w ++ (t ++ w')).length + 2) (skipJsonSpace (w ++ (t ++ w'))) = .ok (j, w') := by
      have h1 := (fuelOk _).value (t ++ w') rfl (2 * (w ++ (t ++ w')).length + 2) (by simp; omega)
      have h2 := (fuelOk _).value (t ++ w') rfl (n + (2 * (t ++ w').length + 1)) (by omega)
      rw [hs, h1.1, ← h2.1]
      exact hn _ (by omega) w' (by have := stops_blank hb' stops_nil; rwa [List.append_nil] at this)
    rw [hf]
    dsimp only
    have : skipJsonSpace w' = [] := by
      rw [← List.append_nil w', skip_blank hb']; rfl
    rw [this]
    rfl
  · cases w with
    | nil =>
      obtain ⟨c, s, rfl, _, _, _, hc⟩ := jsonValue_head hv
      simpa [List.isPrefixOf] using fun h => hc h.symm
    | cons c w =>
      have := hb c (by simp)
      have hc : '\uFEFF' ≠ c := by rintro rfl; revert this; decide
      simpa [List.isPrefixOf] using hc

end Verif
