import Verif.Spec.Uuid
import Verif.Proofs.PyInt
import Verif.Py.Json
import Mathlib.Data.Nat.Find
/-!
# `uuid.UUID(s)` accepts exactly the texts of UUIDs
-/

namespace Verif

/-! ## removing a word -/

theorem replaceStrAux_skip (old new : PyStr) (k : Nat) (u s : PyStr) (hu : u.length = k) :
    replaceStrAux old new k (u ++ s) = replaceStrAux old new 0 s := by
  induction u generalizing k with
  | nil => cases hu; rfl
  | cons c u ih =>
    cases hu
    rw [List.cons_append, List.length_cons, replaceStrAux]
    exact ih _ rfl

theorem replaceStr_word {old : PyStr} (hne : old ≠ []) (new s : PyStr) :
    replaceStr old new (old ++ s) = new ++ replaceStr old new s := by
  unfold replaceStr
  obtain ⟨c, u, rfl⟩ := List.exists_cons_of_ne_nil hne
  rw [List.cons_append, replaceStrAux, if_pos (by rw [List.isPrefixOf_iff_prefix, ← List.cons_append]; exact List.prefix_append _ _)]
  rw [replaceStrAux_skip _ _ _ _ _ (by simp)]

theorem replaceStr_absent {old : PyStr} (new : PyStr) {s : PyStr} (h : ¬ old <:+: s) : replaceStr old new s = s := by
  induction s with
  | nil => rfl
  | cons c s ih =>
    unfold replaceStr at ih ⊢
    rw [replaceStrAux, if_neg fun hp => h (List.isPrefixOf_iff_prefix.1 hp).isInfix,
      ih fun hi => h (hi.trans (List.suffix_cons c s).isInfix)]

/-- no occurrence of the word begins in `a` -/
theorem replaceStr_before {old : PyStr} (new : PyStr) {a s : PyStr} (h : ¬ old <:+: a ++ old.dropLast) :
    replaceStr old new (a ++ (old ++ s)) = a ++ replaceStr old new (old ++ s) := by
  induction a with
  | nil => rfl
  | cons c a ih =>
    have hn : ¬ old <+: c :: (a ++ (old ++ s)) := by
      intro hp
      apply h
      have hlen : old.length ≤ (c :: (a ++ old.dropLast)).length := by simp; omega
      have hpre : c :: (a ++ old.dropLast) <+: c :: (a ++ (old ++ s)) := by
        refine List.cons_prefix_cons.2 ⟨rfl, (List.prefix_append_right_inj a).2 ?_⟩
        exact (List.dropLast_prefix old).trans (List.prefix_append old s)
      exact (List.prefix_of_prefix_length_le hp hpre hlen).isInfix
    unfold replaceStr at ih ⊢
    rw [List.cons_append, replaceStrAux, if_neg (by rwa [List.isPrefixOf_iff_prefix])]
    rw [ih fun hi => h (hi.trans (List.suffix_cons c (a ++ old.dropLast)).isInfix)]
    rfl

theorem without_iff {word : PyStr} (hne : word ≠ []) (s t : PyStr) : replaceStr word [] s = t ↔ Without word s t := by
  constructor
  · rintro rfl
    induction hn : s.length using Nat.strongRecOn generalizing s with
    | ind n ih =>
      by_cases h : word <:+: s
      · -- the first occurrence
        have hfirst : ∃ a s', s = a ++ word ++ s' ∧ ¬ word <:+: a ++ word.dropLast := by
          have hex : ∃ k, ∃ a s', s = a ++ word ++ s' ∧ a.length = k := by
            obtain ⟨a, s', h⟩ := h
            exact ⟨a.length, a, s', h.symm, rfl⟩
          classical
          obtain ⟨a, s', he, hk⟩ := Nat.find_spec hex
          refine ⟨a, s', he, ?_⟩
          rintro ⟨u, v, huv⟩
          have hlen := congrArg List.length huv
          have hw := List.length_pos_iff.2 hne
          simp only [List.length_append, List.length_dropLast] at hlen
          refine Nat.find_min hex (m := u.length) (by omega) ⟨u, v ++ word.drop (word.length - 1) ++ s', ?_, rfl⟩
          rw [he]
          have : word = word.dropLast ++ word.drop (word.length - 1) := by
            rw [List.dropLast_eq_take, List.take_append_drop]
          calc a ++ word ++ s' = a ++ (word.dropLast ++ word.drop (word.length - 1)) ++ s' := by rw [← this]
            _ = (a ++ word.dropLast) ++ word.drop (word.length - 1) ++ s' := by simp
            _ = u ++ word ++ (v ++ word.drop (word.length - 1) ++ s') := by rw [← huv]; simp
        obtain ⟨a, s', rfl, hf⟩ := hfirst
        rw [List.append_assoc, replaceStr_before [] hf, replaceStr_word hne, List.nil_append, ← List.append_assoc]
        have hw := List.length_pos_iff.2 hne
        exact .first hf (ih _ (by subst hn; simp; omega) _ rfl)
      · rw [replaceStr_absent [] h]
        exact .none h
  · intro h
    induction h with
    | none h => exact replaceStr_absent [] h
    | first h _ ih => rw [List.append_assoc, replaceStr_before [] h, replaceStr_word hne, ih, List.nil_append]

theorem replaceChar_filter (c : Char) (s : PyStr) : replaceChar c [] s = s.filter fun x => x != c := by
  unfold replaceChar
  induction s with
  | nil => rfl
  | cons x s ih =>
    rw [List.flatMap_cons, ih]
    by_cases h : x = c
    · rw [if_pos h, List.filter_cons_of_neg (by simp [h])]; rfl
    · rw [if_neg h, List.filter_cons_of_pos (by simp [h])]; rfl

/-! ## hexadecimal numbers -/

theorem hexVal_letter {c : Char} {v : Nat} (h : hexVal c = some v) : isDigit c = true ∧ v = digitVal c ∨
    (∃ n < 6, c = Char.ofNat (97 + n) ∧ v = 10 + n) ∨ ∃ n < 6, c = Char.ofNat (65 + n) ∧ v = 10 + n := by
  have e : ∀ k, c.toNat = k → c = Char.ofNat k := fun k h => by rw [← h, Char.ofNat_toNat]
  unfold hexVal at h
  dsimp only at h
  split at h
  · rename_i hc
    cases h
    left
    have hd : ∀ n < 10, isDigit (Char.ofNat (48 + n)) = true ∧ n = digitVal (Char.ofNat (48 + n)) := by decide
    have := hd (c.toNat - 48) (by omega)
    rwa [← e _ (show c.toNat = 48 + (c.toNat - 48) by omega)] at this
  split at h
  · cases h
    exact .inr (.inl ⟨c.toNat - 97, by omega, e _ (by omega), by omega⟩)
  split at h
  · cases h
    exact .inr (.inr ⟨c.toNat - 65, by omega, e _ (by omega), by omega⟩)
  · cases h

theorem hexDigitVal_iff (c : Char) (v : Nat) : hexDigitVal c = some v ↔ IntDigit16 c v := by
  constructor
  · intro h
    unfold hexDigitVal at h
    split at h
    · rename_i hc; cases h; exact .digit hc
    · rcases hexVal_letter h with ⟨h1, rfl⟩ | ⟨n, hn, rfl, rfl⟩ | ⟨n, hn, rfl, rfl⟩
      · exact .digit h1
      · exact .lower n hn
      · exact .upper n hn
  · intro h
    cases h with
    | digit h => rw [hexDigitVal, if_pos h]
    | lower n h =>
      have : ∀ n < 6, hexDigitVal (Char.ofNat (97 + n)) = some (10 + n) := by decide
      exact this n h
    | upper n h =>
      have : ∀ n < 6, hexDigitVal (Char.ofNat (65 + n)) = some (10 + n) := by decide
      exact this n h

theorem hexValues_iff (s : PyStr) (vs : List Nat) :
    List.Forall₂ IntDigit16 s vs ↔ (∀ c ∈ s, (hexDigitVal c).isSome) ∧ vs = s.map fun c => (hexDigitVal c).getD 0 := by
  induction s generalizing vs with
  | nil => simp
  | cons c s ih =>
    cases vs with
    | nil => simp
    | cons v vs =>
      rw [List.forall₂_cons, ih, ← hexDigitVal_iff]
      simp only [List.mem_cons, forall_eq_or_imp, List.map_cons, List.cons.injEq]
      constructor
      · rintro ⟨h1, h2, h3⟩; rw [h1]; exact ⟨⟨rfl, h2⟩, rfl, h3⟩
      · rintro ⟨⟨h1, h2⟩, h3, h4⟩
        obtain ⟨w, hw⟩ := Option.isSome_iff_exists.1 h1
        rw [hw] at h3
        exact ⟨by rw [hw, h3]; rfl, h2, h4⟩

/-- the digits of `pyIntHex` -/
def hexGroups (t : PyStr) : Option Nat :=
  let parts := splitChar '_' t
  if parts.all fun p => !p.isEmpty && p.all fun c => (hexDigitVal c).isSome then
    some (parts.flatten.foldl (fun n c => 16 * n + (hexDigitVal c).getD 0) 0)
  else none

theorem hexGroups_iff (t : PyStr) (n : Nat) : hexGroups t = some n ↔ ∃ (groups : List PyStr) (values : List Nat),
    t = List.intercalate ['_'] groups ∧ groups ≠ [] ∧ (∀ g ∈ groups, g ≠ []) ∧ List.Forall₂ IntDigit16 groups.flatten values ∧
    n = values.foldl (fun n v => 16 * n + v) 0 := by
  have hs : ∀ gs : List PyStr, t = List.intercalate ['_'] gs → gs ≠ [] → (∀ c ∈ gs.flatten, (hexDigitVal c).isSome) → splitChar '_' t = gs := by
    intro gs h1 h2 h3
    exact (splitChar_iff '_' t gs).2 ⟨h2, h1, fun p hp hc => absurd (h3 _ (List.mem_flatten.2 ⟨p, hp, hc⟩)) (by decide)⟩
  unfold hexGroups
  simp only
  constructor
  · intro h
    split at h
    · rename_i hall
      cases h
      obtain ⟨h1, h2, _⟩ := (splitChar_iff '_' t _).1 rfl
      have h' : ∀ g ∈ splitChar '_' t, g ≠ [] ∧ ∀ c ∈ g, (hexDigitVal c).isSome = true := by
        intro g hg
        have := List.all_eq_true.1 hall g hg
        simpa using this
      refine ⟨_, _, h2, h1, fun g hg => (h' g hg).1, (hexValues_iff _ _).2 ⟨?_, rfl⟩, ?_⟩
      · intro c hc
        obtain ⟨g, hg, hc⟩ := List.mem_flatten.1 hc
        exact (h' g hg).2 c hc
      · rw [List.foldl_map]
    · cases h
  · rintro ⟨gs, vs, h1, h2, h3, h4, rfl⟩
    obtain ⟨h5, rfl⟩ := (hexValues_iff _ _).1 h4
    rw [hs gs h1 h2 h5, if_pos, List.foldl_map]
    refine List.all_eq_true.2 fun p hp => ?_
    have := h3 p hp
    simpa [this] using fun c hc => h5 c (List.mem_flatten.2 ⟨p, hp, hc⟩)

theorem pyIntHex_eq (s : PyStr) :
    pyIntHex s = hexGroups (dropHexPrefix (dropPlus ((s.dropWhile isIntSpace).reverse.dropWhile isIntSpace).reverse)) := rfl

theorem digit16_class {c : Char} {v : Nat} (h : IntDigit16 c v) :
    isSpace c = false ∧ c ≠ '+' ∧ c ≠ 'x' ∧ c ≠ 'X' ∧ c ≠ '_' ∧ c ≠ '{' ∧ c ≠ '}' := by
  cases h with
  | digit h => exact ⟨digit_notSpace h, isDigit_ne h (by decide), isDigit_ne h (by decide), isDigit_ne h (by decide), isDigit_ne h (by decide),
      isDigit_ne h (by decide), isDigit_ne h (by decide)⟩
  | lower n h =>
    have : ∀ n < 6, isSpace (Char.ofNat (97 + n)) = false ∧ Char.ofNat (97 + n) ≠ '+' ∧ Char.ofNat (97 + n) ≠ 'x' ∧
      Char.ofNat (97 + n) ≠ 'X' ∧ Char.ofNat (97 + n) ≠ '_' ∧ Char.ofNat (97 + n) ≠ '{' ∧ Char.ofNat (97 + n) ≠ '}' := by decide
    exact this n h
  | upper n h =>
    have : ∀ n < 6, isSpace (Char.ofNat (65 + n)) = false ∧ Char.ofNat (65 + n) ≠ '+' ∧ Char.ofNat (65 + n) ≠ 'x' ∧
      Char.ofNat (65 + n) ≠ 'X' ∧ Char.ofNat (65 + n) ≠ '_' ∧ Char.ofNat (65 + n) ≠ '{' ∧ Char.ofNat (65 + n) ≠ '}' := by decide
    exact this n h

theorem forall₂_left {α β : Type} {R : α → β → Prop} {l : List α} {m : List β} (h : List.Forall₂ R l m) : ∀ a ∈ l, ∃ b, R a b := by
  induction h with
  | nil => intro a ha; cases ha
  | cons h _ ih =>
    intro a ha
    rcases List.mem_cons.1 ha with rfl | ha
    · exact ⟨_, h⟩
    · exact ih a ha

/-- the characters of the groups -/
theorem groups_chars {gs : List PyStr} {vs : List Nat} (h : List.Forall₂ IntDigit16 gs.flatten vs) {c : Char}
    (hc : c ∈ List.intercalate ['_'] gs) : c = '_' ∨ ∃ v, IntDigit16 c v := by
  rcases intercalate_mem hc with rfl | ⟨g, hg, hc⟩
  · exact .inl rfl
  · exact .inr (forall₂_left h c (List.mem_flatten.2 ⟨g, hg, hc⟩))

theorem groups_head {gs : List PyStr} {vs : List Nat} (h1 : gs ≠ []) (h2 : ∀ g ∈ gs, g ≠ []) (h : List.Forall₂ IntDigit16 gs.flatten vs) :
    ∃ c t v, List.intercalate ['_'] gs = c :: t ∧ IntDigit16 c v := by
  obtain ⟨g, gs, rfl⟩ := List.exists_cons_of_ne_nil h1
  obtain ⟨x, g, rfl⟩ := List.exists_cons_of_ne_nil (h2 g (by simp))
  obtain ⟨v, hv⟩ := forall₂_left h x (by simp)
  cases gs with
  | nil => exact ⟨x, g, v, by simp [List.intercalate], hv⟩
  | cons g' gs => exact ⟨x, g ++ '_' :: List.intercalate ['_'] (g' :: gs), v, rfl, hv⟩

theorem dropPlus_split (t : PyStr) : ∃ sign, t = sign ++ dropPlus t ∧ (sign = [] ∨ sign = ['+']) := by
  unfold dropPlus
  split
  · exact ⟨['+'], rfl, .inr rfl⟩
  · exact ⟨[], rfl, .inl rfl⟩

theorem dropHexPrefix_split (t : PyStr) : ∃ pre, t = pre ++ dropHexPrefix t ∧ HexPrefix pre := by
  unfold dropHexPrefix
  split
  · rename_i z x s
    split
    · rename_i h
      simp only [Bool.and_eq_true, Bool.or_eq_true, beq_iff_eq] at h
      obtain ⟨⟨h1, h2⟩, h3⟩ := h
      split
      · exact ⟨[z, x, '_'], rfl, .underscore h1 h2 h3⟩
      · exact ⟨[z, x], rfl, .letter h1 h2 h3⟩
    · exact ⟨[], rfl, .missing⟩
  · exact ⟨[], rfl, .missing⟩

theorem hexPrefix_chars {pre : PyStr} (h : HexPrefix pre) {c : Char} (hc : c ∈ pre) :
    isSpace c = false ∧ c ≠ '+' ∧ c ≠ '{' ∧ c ≠ '}' := by
  have hz : ∀ z, isDigit z = true → isSpace z = false ∧ z ≠ '+' ∧ z ≠ '{' ∧ z ≠ '}' := fun z h =>
    ⟨digit_notSpace h, isDigit_ne h (by decide), isDigit_ne h (by decide), isDigit_ne h (by decide)⟩
  have hx : ∀ x, x = 'x' ∨ x = 'X' → isSpace x = false ∧ x ≠ '+' ∧ x ≠ '{' ∧ x ≠ '}' := by
    rintro x (rfl | rfl) <;> decide
  cases h with
  | missing => cases hc
  | letter h h0 h' =>
    rcases List.mem_cons.1 hc with rfl | hc
    · exact hz _ h
    · rw [List.mem_singleton.1 hc]; exact hx _ h'
  | underscore h h0 h' =>
    rcases List.mem_cons.1 hc with rfl | hc
    · exact hz _ h
    · rcases List.mem_cons.1 hc with rfl | hc
      · exact hx _ h'
      · rw [List.mem_singleton.1 hc]; decide

theorem dropHexPrefix_of {pre : PyStr} (h : HexPrefix pre) {gs : List PyStr} {vs : List Nat} (h1 : gs ≠ []) (h2 : ∀ g ∈ gs, g ≠ [])
    (h3 : List.Forall₂ IntDigit16 gs.flatten vs) : dropHexPrefix (pre ++ List.intercalate ['_'] gs) = List.intercalate ['_'] gs := by
  obtain ⟨c, t, v, he, hc⟩ := groups_head h1 h2 h3
  have hcu := (digit16_class hc).2.2.2.2.1
  cases h with
  | missing =>
    rw [List.nil_append]
    unfold dropHexPrefix
    split
    · rename_i z x s hzx
      split
      · rename_i hh
        exfalso
        simp only [Bool.and_eq_true, Bool.or_eq_true, beq_iff_eq] at hh
        have hx : x ∈ List.intercalate ['_'] gs := by rw [hzx]; simp
        rcases groups_chars h3 hx with rfl | ⟨w, hw⟩
        · exact absurd hh.2 (by decide)
        · have := digit16_class hw
          rcases hh.2 with rfl | rfl
          · exact this.2.2.1 rfl
          · exact this.2.2.2.1 rfl
      · exact hzx.symm
    · rfl
  | letter hz h0 hx =>
    rw [he]
    change (if _ then _ else _) = _
    rw [if_pos (by rcases hx with rfl | rfl <;> simp [hz, h0])]
    split
    · rename_i h; injection h with h; exact absurd h hcu
    · rfl
  | underscore hz h0 hx =>
    rw [he]
    change (if _ then _ else _) = _
    rw [if_pos (by rcases hx with rfl | rfl <;> simp [hz, h0])]
    rfl

theorem pyIntHex_iff (s : PyStr) (n : Nat) : pyIntHex s = some n ↔ HexText s n := by
  rw [pyIntHex_eq]
  have mid : ∀ (sign pre : PyStr) (gs : List PyStr) (vs : List Nat), (sign = [] ∨ sign = ['+']) → HexPrefix pre → gs ≠ [] →
      (∀ g ∈ gs, g ≠ []) → List.Forall₂ IntDigit16 gs.flatten vs →
      (((s.dropWhile isIntSpace).reverse.dropWhile isIntSpace).reverse = sign ++ (pre ++ List.intercalate ['_'] gs) ↔
        ∃ a b, s = a ++ (sign ++ (pre ++ List.intercalate ['_'] gs)) ++ b ∧ ∀ c ∈ a ++ b, isIntSpace c = true) := by
    intro sign pre gs vs hs hp h1 h2 h3
    have good : ∀ c ∈ sign ++ (pre ++ List.intercalate ['_'] gs), isIntSpace c = false := by
      intro c hc
      have : isSpace c = false := by
        rcases List.mem_append.1 hc with hc | hc
        · rcases hs with rfl | rfl
          · cases hc
          · rw [List.mem_singleton.1 hc]; decide
        · rcases List.mem_append.1 hc with hc | hc
          · exact (hexPrefix_chars hp hc).1
          · rcases groups_chars h3 hc with rfl | ⟨v, hv⟩
            · decide
            · exact (digit16_class hv).1
      simp [isIntSpace, this]
    obtain ⟨c, t, v, he, _⟩ := groups_head h1 h2 h3
    refine stripBy_iff isIntSpace s _ ?_ ?_ ?_
    · intro c r hc; exact good c (by rw [hc]; simp)
    · intro r c hc; exact good c (by rw [hc]; simp)
    · rw [he]; simp
  constructor
  · intro h
    obtain ⟨gs, vs, h0, h1, h2, h3, rfl⟩ := (hexGroups_iff _ _).1 h
    obtain ⟨sign, e1, hs⟩ := dropPlus_split ((s.dropWhile isIntSpace).reverse.dropWhile isIntSpace).reverse
    obtain ⟨pre, e2, hp⟩ := dropHexPrefix_split (dropPlus ((s.dropWhile isIntSpace).reverse.dropWhile isIntSpace).reverse)
    rw [h0] at e2
    rw [e2] at e1
    obtain ⟨a, b, h5, h6⟩ := (mid sign pre gs vs hs hp h1 h2 h3).1 e1
    exact ⟨a, sign, pre, b, gs, vs, h5, fun c hc => (isIntSpace_iff c).1 (h6 c hc), hs, hp, h1, h2, h3, rfl⟩
  · rintro ⟨a, sign, pre, b, gs, vs, h0, hab, hs, hp, h1, h2, h3, rfl⟩
    rw [(mid sign pre gs vs hs hp h1 h2 h3).2 ⟨a, b, h0, fun c hc => (isIntSpace_iff c).2 (hab c hc)⟩]
    have hd : dropPlus (sign ++ (pre ++ List.intercalate ['_'] gs)) = pre ++ List.intercalate ['_'] gs := by
      rcases hs with rfl | rfl
      · rw [List.nil_append]
        unfold dropPlus
        split
        · rename_i u hu
          exfalso
          have : '+' ∈ pre ++ List.intercalate ['_'] gs := by rw [hu]; simp
          rcases List.mem_append.1 this with hc | hc
          · exact (hexPrefix_chars hp hc).2.1 rfl
          · rcases groups_chars h3 hc with hc | ⟨v, hv⟩
            · cases hc
            · exact (digit16_class hv).2.1 rfl
        · rfl
      · rfl
    rw [hd, dropHexPrefix_of hp h1 h2 h3]
    exact (hexGroups_iff _ _).2 ⟨gs, vs, rfl, h1, h2, h3, rfl⟩

/-! ## UUIDs -/

theorem hexText_braces {s : PyStr} {n : Nat} (h : HexText s n) : '{' ∉ s ∧ '}' ∉ s := by
  obtain ⟨a, sign, pre, b, gs, vs, rfl, hab, hs, hp, h1, h2, h3, rfl⟩ := h
  have hh : ∀ c, c = '{' ∨ c = '}' → c ∉ a ++ (sign ++ (pre ++ List.intercalate ['_'] gs)) ++ b := by
    intro c hc hm
    have hns : isSpace c = false := by rcases hc with rfl | rfl <;> decide
    simp only [List.mem_append] at hm
    rcases hm with (hm | hm | hm | hm) | hm
    · rw [mem_whiteSpace.1 (hab c (by simp [hm])).1] at hns; cases hns
    · rcases hs with rfl | rfl
      · cases hm
      · rw [List.mem_singleton.1 hm] at hc; revert hc; decide
    · have := hexPrefix_chars hp hm
      rcases hc with rfl | rfl
      · exact this.2.2.1 rfl
      · exact this.2.2.2 rfl
    · rcases groups_chars h3 hm with rfl | ⟨v, hv⟩
      · revert hc; decide
      · have := digit16_class hv
        rcases hc with rfl | rfl
        · exact this.2.2.2.2.2.1 rfl
        · exact this.2.2.2.2.2.2 rfl
    · rw [mem_whiteSpace.1 (hab c (by simp [hm])).1] at hns; cases hns
  exact ⟨hh _ (.inl rfl), hh _ (.inr rfl)⟩

theorem stripBraces_split (s : PyStr) : ∃ a b, s = a ++ stripBraces s ++ b ∧ ∀ c ∈ a ++ b, c = '{' ∨ c = '}' := by
  let f : Char → Bool := fun c => c == '{' || c == '}'
  refine ⟨s.takeWhile f, ((s.dropWhile f).reverse.takeWhile f).reverse, ?_, ?_⟩
  · unfold stripBraces
    rw [List.append_assoc, ← List.reverse_append, List.takeWhile_append_dropWhile, List.reverse_reverse,
      List.takeWhile_append_dropWhile]
  · intro c hc
    have : f c = true := by
      rcases List.mem_append.1 hc with hc | hc
      · exact mem_takeWhile_imp hc
      · exact mem_takeWhile_imp (List.mem_reverse.1 hc)
    simpa [f] using this

theorem parseUuid_iff (s : PyStr) (n : Nat) : parseUuid s = some n ↔ UuidText s n := by
  unfold parseUuid
  simp only [replaceChar_filter]
  constructor
  · intro h
    split at h
    · cases h
    · rename_i hl
      obtain ⟨a, b, h1, h2⟩ := stripBraces_split (replaceStr py!"uuid:" [] (replaceStr py!"urn:" [] s))
      exact ⟨_, _, a, _, b, (without_iff (by simp) _ _).1 rfl, (without_iff (by simp) _ _).1 rfl, h1, h2, by simpa using hl,
        (pyIntHex_iff _ _).1 h⟩
  · rintro ⟨s1, s2, a, s3, b, h1, h2, h3, h4, h5, h6⟩
    rw [(without_iff (by simp) _ _).2 h1, (without_iff (by simp) _ _).2 h2]
    obtain ⟨b1, b2⟩ := hexText_braces h6
    have hb : ∀ c ∈ s3, (c == '{' || c == '}') = false := by
      intro c hc
      have hne : ∀ d, d ≠ '-' → d ∉ s3.filter (fun c => c != '-') → c ≠ d := by
        rintro d hd hn rfl
        exact hn (List.mem_filter.2 ⟨hc, by simpa using hd⟩)
      simp [hne '{' (by decide) b1, hne '}' (by decide) b2]
    have : stripBraces s2 = s3 := by
      unfold stripBraces
      refine (stripBy_iff _ s2 s3 ?_ ?_ ?_).2 ⟨a, b, h3, fun c hc => ?_⟩
      · intro c r hc; exact hb c (by rw [hc]; simp)
      · intro r c hc; exact hb c (by rw [hc]; simp)
      · rintro rfl; cases h5
      · simpa using h4 c hc
    rw [this, if_neg (by simpa using h5)]
    exact (pyIntHex_iff _ _).2 h6

end Verif
