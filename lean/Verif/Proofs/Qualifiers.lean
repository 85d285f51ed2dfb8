import Verif.Spec.MigXml
import Verif.Proofs.RegexLang
import Verif.Proofs.JsonPath
/-!
# Lemmas about nested qualifiers
-/

namespace Verif
open Re

/-! ## splitting -/

theorem splitChar_ne_nil (c : Char) (s : PyStr) : splitChar c s ≠ [] := by
  cases s with
  | nil => simp [splitChar]
  | cons x s =>
    rw [splitChar]
    split
    · simp
    · split <;> simp

theorem splitChar_cons_eq (c : Char) (s : PyStr) : splitChar c (c :: s) = [] :: splitChar c s := by
  rw [splitChar, if_pos rfl]

theorem splitChar_cons_ne {c x : Char} {s : PyStr} {w : PyStr} {ws : List PyStr} (hx : x ≠ c) (h : splitChar c s = w :: ws) :
    splitChar c (x :: s) = (x :: w) :: ws := by
  rw [splitChar, if_neg hx, h]

theorem splitChar_none {c : Char} {s : PyStr} (h : c ∉ s) : splitChar c s = [s] := by
  induction s with
  | nil => rfl
  | cons x s ih =>
    simp only [List.mem_cons, not_or] at h
    exact splitChar_cons_ne (Ne.symm h.1) (ih h.2)

theorem splitChar_prefix {c : Char} {u s w : PyStr} {ws : List PyStr} (hu : c ∉ u) (h : splitChar c s = w :: ws) :
    splitChar c (u ++ s) = (u ++ w) :: ws := by
  induction u with
  | nil => exact h
  | cons x u ih =>
    simp only [List.mem_cons, not_or] at hu
    exact splitChar_cons_ne (Ne.symm hu.1) (ih hu.2)

theorem splitChar_sep {c : Char} {u s : PyStr} (hu : c ∉ u) : splitChar c (u ++ c :: s) = u :: splitChar c s := by
  have := splitChar_prefix hu (splitChar_cons_eq c s)
  simpa using this

theorem splitChar_snoc (c : Char) (s : PyStr) : splitChar c (s ++ [c]) = splitChar c s ++ [[]] := by
  induction s with
  | nil => simp [splitChar]
  | cons x s ih =>
    by_cases hx : x = c
    · subst hx
      rw [List.cons_append, splitChar_cons_eq, splitChar_cons_eq, ih]; rfl
    · obtain ⟨w, ws, hw⟩ := List.exists_cons_of_ne_nil (splitChar_ne_nil c s)
      rw [List.cons_append, splitChar_cons_ne hx hw, splitChar_cons_ne (w := w) (ws := ws ++ [[]]) hx (by rw [ih, hw]; rfl)]
      rfl

theorem join_splitChar (c : Char) (s : PyStr) : pyJoin [c] (splitChar c s) = s ∧ ∀ p ∈ splitChar c s, c ∉ p := by
  induction s with
  | nil => simp [splitChar, pyJoin]
  | cons x s ih =>
    obtain ⟨w, ws, hw⟩ := List.exists_cons_of_ne_nil (splitChar_ne_nil c s)
    rw [hw] at ih
    by_cases hx : x = c
    · subst hx
      rw [splitChar_cons_eq, hw]
      refine ⟨?_, ?_⟩
      · rw [pyJoin]
        · rw [ih.1]; simp
        · simp
      · intro p hp
        rcases List.mem_cons.1 hp with rfl | hp
        · simp
        · exact ih.2 p hp
    · rw [splitChar_cons_ne hx hw]
      refine ⟨?_, ?_⟩
      · cases ws with
        | nil => have := ih.1; simp only [pyJoin] at this ⊢; rw [this]
        | cons v ws =>
          have := ih.1
          rw [pyJoin] at this ⊢
          · rw [← this]; simp
          · simp
          · simp
      · intro p hp
        rcases List.mem_cons.1 hp with rfl | hp
        · simp only [List.mem_cons, not_or]
          exact ⟨Ne.symm hx, ih.2 w (by simp)⟩
        · exact ih.2 p (by simp [hp])

theorem splitChar_join (c : Char) (ps : List PyStr) (hne : ps ≠ []) (h : ∀ p ∈ ps, c ∉ p) :
    splitChar c (pyJoin [c] ps) = ps := by
  induction ps with
  | nil => exact absurd rfl hne
  | cons p ps ih =>
    cases ps with
    | nil => simp only [pyJoin]; exact splitChar_none (h p (by simp))
    | cons q ps =>
      rw [pyJoin]
      · rw [List.append_assoc]
        have := splitChar_sep (s := pyJoin [c] (q :: ps)) (h p (by simp))
        rw [List.singleton_append, this, ih (by simp) (fun x hx => h x (by simp [hx]))]
      · simp

/-! ## languages -/

theorem lang_plus {a : Re} {w : PyStr} : Lang (plus a) w ↔ ∃ ws : List PyStr, ws ≠ [] ∧ w = ws.flatten ∧ ∀ u ∈ ws, Lang a u := by
  rw [plus, Lang]
  constructor
  · rintro ⟨u, v, rfl, h1, ws, rfl, h2⟩
    refine ⟨u :: ws, by simp, by simp, ?_⟩
    intro x hx
    rcases List.mem_cons.1 hx with rfl | hx
    · exact h1
    · exact h2 x hx
  · rintro ⟨ws, hne, rfl, h⟩
    cases ws with
    | nil => exact absurd rfl hne
    | cons u ws => exact ⟨u, ws.flatten, by simp, h u (by simp), ws, rfl, fun x hx => h x (by simp [hx])⟩

theorem lang_digits {w : PyStr} : Lang (plus (cls isDigit)) w ↔ IsDigits w := lang_plus_cls

theorem lang_upper {w : PyStr} : Lang (plus (cls isAZ)) w ↔ IsUpperWord w := by
  rw [lang_plus_cls]; simp only [IsUpperWord, mem_capitals]

theorem lang_qualifier {w : PyStr} : Lang (plus (cls isAZDigit)) w ↔ IsQualifier w := by
  rw [lang_plus_cls]; simp [IsQualifier, isAZDigit, mem_capitals]

theorem lang_reference {w : PyStr} : Lang referenceRe w ↔ ∃ r, w = r ++ py!"[" ∧ IsReference r := by
  unfold referenceRe
  constructor
  · rintro ⟨seg, _, rfl, h1, _, _, rfl, h2, n, _, rfl, h3, _, _, rfl, h4, m, _, rfl, h5, h6⟩
    rw [lang_chr] at h2 h4 h6
    subst h2 h4 h6
    refine ⟨seg ++ py!":" ++ n ++ py!":" ++ m, by simp, seg, n, m, rfl, lang_upper.1 h1, lang_digits.1 h3, ?_⟩
    rcases h5 with h5 | ⟨_, _, rfl, h6, a, _, rfl, h7, _, _, rfl, h8, b, _, rfl, h9, h10⟩
    · exact .inl (lang_digits.1 h5)
    · rw [lang_chr] at h6 h8 h10
      subst h6 h8 h10
      exact .inr ⟨a, b, by simp, lang_digits.1 h7, lang_digits.1 h9⟩
  · rintro ⟨_, rfl, seg, n, m, rfl, h1, h2, h3⟩
    refine ⟨seg, _, by simp only [List.append_assoc], lang_upper.2 h1, _, _, rfl, lang_chr.2 rfl, n, _, rfl, lang_digits.2 h2,
      _, _, rfl, lang_chr.2 rfl, m, _, rfl, ?_, lang_chr.2 rfl⟩
    rcases h3 with h3 | ⟨a, b, rfl, h4, h5⟩
    · exact .inl (lang_digits.2 h3)
    · exact .inr ⟨_, _, by simp only [List.append_assoc], lang_chr.2 rfl, a, _, rfl, lang_digits.2 h4, _, _, rfl, lang_chr.2 rfl,
        b, _, rfl, lang_digits.2 h5, lang_chr.2 rfl⟩

theorem plain_reference : Plain referenceRe := by simp [referenceRe, Plain, plus, chr]

theorem flatten_words (ws : List PyStr) (h : ∀ u ∈ ws, Lang (.seq (.plus (.cls isWord)) (.chr ':')) u) :
    ∃ words : List PyStr, ws.flatten = (words.flatMap fun w => w ++ py!":") ∧ words.length = ws.length ∧
      ∀ w ∈ words, w ≠ [] ∧ ∀ c ∈ w, isWord c = true := by
  induction ws with
  | nil => exact ⟨[], rfl, rfl, by simp⟩
  | cons u ws ih =>
    obtain ⟨words, h1, h2, h3⟩ := ih (fun x hx => h x (by simp [hx]))
    obtain ⟨w, _, rfl, h4, h5⟩ := h u (by simp)
    rw [lang_chr] at h5
    subst h5
    refine ⟨w :: words, by simp [h1], by simp [h2], ?_⟩
    intro x hx
    rcases List.mem_cons.1 hx with rfl | hx
    · exact lang_plus_cls.1 h4
    · exact h3 x hx

theorem lang_singlePath {w : PyStr} : Lang singlePathRe w ↔ ∃ p, w = p ++ py!"=" ∧ IsWordPath p := by
  unfold singlePathRe
  constructor
  · rintro ⟨_, _, rfl, h1, last, _, rfl, h2, o, _, rfl, h3, h4⟩
    rw [lang_chr] at h4
    subst h4
    obtain ⟨ws, hne, rfl, h⟩ := lang_plus.1 h1
    obtain ⟨words, h5, h6, h7⟩ := flatten_words ws h
    refine ⟨ws.flatten ++ last ++ o, by simp, words, last, ?_, ?_, ?_⟩
    · rintro rfl; exact hne (List.length_eq_zero_iff.1 h6.symm)
    · intro x hx
      rcases List.mem_cons.1 hx with rfl | hx
      · exact lang_plus_cls.1 h2
      · exact h7 x hx
    · rw [h5]
      rcases h3 with h3 | h3
      · rw [lang_chr] at h3; subst h3; exact .inr rfl
      · rw [Lang] at h3; subst h3; exact .inl (by simp)
  · rintro ⟨p, rfl, words, last, h1, h2, h3⟩
    have key : Lang (.plus (.seq (.plus (.cls isWord)) (.chr ':'))) (words.flatMap fun w => w ++ py!":") := by
      rw [lang_plus]
      refine ⟨words.map fun w => w ++ py!":", by simpa using h1, by rw [List.flatMap_def], ?_⟩
      intro u hu
      obtain ⟨w, hw, rfl⟩ := List.mem_map.1 hu
      exact ⟨w, _, rfl, lang_plus_cls.2 (h2 w (by simp [hw])), lang_chr.2 rfl⟩
    rcases h3 with rfl | rfl
    · exact ⟨_, _, List.append_assoc _ _ _, key, last, _, rfl, lang_plus_cls.2 (h2 last (by simp)), [], _, rfl, .inr rfl,
        lang_chr.2 rfl⟩
    · exact ⟨_, _, by simp only [List.append_assoc], key, last, _, rfl, lang_plus_cls.2 (h2 last (by simp)), _, _, rfl,
        .inl (lang_chr.2 rfl), lang_chr.2 rfl⟩

theorem plain_singlePath : Plain singlePathRe := by simp [singlePathRe, Plain, plus, chr, opt]

theorem lang_item {w : PyStr} : Lang multiItemRe w ↔ IsItem w ∨ ∃ i, w = i ++ py!"|" ∧ IsItem i := by
  unfold multiItemRe
  constructor
  · rintro ⟨seg, _, rfl, h1, n, _, rfl, h2, _, _, rfl, h3, m, _, rfl, h4, _, _, rfl, h5, q, o, rfl, h6, h7⟩
    rw [lang_chr] at h3 h5
    subst h3 h5
    have hi : IsItem (seg ++ n ++ py!":" ++ m ++ py!"=" ++ q) := by
      refine ⟨seg ++ n ++ py!":" ++ m, q, rfl, ⟨seg, n, m, rfl, ?_, lang_digits.1 h2, lang_digits.1 h4⟩, lang_qualifier.1 h6⟩
      rcases h1 with ⟨c, _, rfl, h8, h9⟩ | h1
      · rw [lang_chr] at h9
        subst h9
        exact .inr ⟨c, rfl, lang_upper.1 h8⟩
      · exact .inl h1
    rcases h7 with h7 | h7
    · rw [lang_chr] at h7
      subst h7
      exact .inr ⟨_, by simp, hi⟩
    · rw [Lang] at h7
      subst h7
      exact .inl (by simpa using hi)
  · have key : ∀ i o, IsItem i → Lang (opt (chr '|')) o → Lang (.seq (.opt (.seq (.plus (.cls isAZ)) (.chr ':')))
        (.seq (.plus (.cls isDigit)) (.seq (.chr ':') (.seq (.plus (.cls isDigit)) (.seq (.chr '=')
          (.seq (.plus (.cls isAZDigit)) (.opt (.chr '|')))))))) (i ++ o) := by
      rintro _ o ⟨_, q, rfl, ⟨seg, n, m, rfl, h1, h2, h3⟩, h4⟩ h5
      refine ⟨seg, _, by simp only [List.append_assoc], ?_, n, _, rfl, lang_digits.2 h2, _, _, rfl, lang_chr.2 rfl, m, _, rfl,
        lang_digits.2 h3, _, _, rfl, lang_chr.2 rfl, q, o, rfl, lang_qualifier.2 h4, h5⟩
      rcases h1 with rfl | ⟨c, rfl, h1⟩
      · exact .inr rfl
      · exact .inl ⟨c, _, rfl, lang_upper.2 h1, lang_chr.2 rfl⟩
    rintro (h | ⟨i, rfl, h⟩)
    · have := key w [] h (.inr rfl)
      simpa using this
    · exact key i _ h (.inl (lang_chr.2 rfl))

theorem plain_item : Plain multiItemRe := by simp [multiItemRe, Plain, plus, chr, opt]

/-! ## matching -/

theorem run_to_lang {r : Re} (hr : Plain r) {st t : MSt} (h : t ∈ run r st) : ∃ w, st.rest = w ++ t.rest ∧ Lang r w :=
  (run_lang r hr st t.rest).1 ⟨t, h, rfl⟩

theorem match_group {A Q : Re} {n : Nat} {b : Char} (hA : Plain A) (hQ : Plain Q) {s : PyStr} {t : MSt}
    (h : (seq A (seq (grp n Q) (seq (chr b) eol))).pyMatch s = some t) :
    ∃ a q, Lang A a ∧ Lang Q q ∧ group t n = some q ∧ UpToNewline (fun s => s = a ++ q ++ [b]) s := by
  have ht : t ∈ run (seq A (seq (grp n Q) (seq (chr b) eol))) { pos := 0, rest := s } := List.mem_of_mem_head? h
  obtain ⟨u, hu, ht⟩ := mem_seq.1 ht
  obtain ⟨v, hv, ht⟩ := mem_seq.1 ht
  obtain ⟨w, hw, ht⟩ := mem_seq.1 ht
  obtain ⟨hend, rfl⟩ := mem_eol.1 ht
  obtain ⟨s', hs', rfl⟩ := mem_chr.1 hw
  obtain ⟨v', hv', rfl⟩ := mem_grp.1 hv
  obtain ⟨a, ha, hla⟩ := run_to_lang hA hu
  obtain ⟨q, hq, hlq⟩ := run_to_lang hQ hv'
  simp only at ha hs'
  refine ⟨a, q, hla, hlq, ?_, ?_⟩
  · simp [group, adv, hq]
  · simp only [adv_rest] at hend
    rw [ha, hq, hs']
    rcases hend with rfl | rfl
    · exact .inl (by simp)
    · exact .inr ⟨_, rfl, by simp⟩

theorem match_isSome {A Q : Re} {n : Nat} {b : Char} (hA : Plain A) (hQ : Plain Q) (s : PyStr) :
    ((seq A (seq (grp n Q) (seq (chr b) eol))).pyMatch s).isSome = true ↔
      ∃ a q, Lang A a ∧ Lang Q q ∧ UpToNewline (fun s => s = a ++ q ++ [b]) s := by
  constructor
  · intro h
    obtain ⟨t, ht⟩ := Option.isSome_iff_exists.1 h
    obtain ⟨a, q, h1, h2, _, h3⟩ := match_group hA hQ ht
    exact ⟨a, q, h1, h2, h3⟩
  · rintro ⟨a, q, h1, h2, h3⟩
    rw [pyMatch_isSome]
    have key : ∀ e, (e = [] ∨ e = ['\n']) → s = a ++ q ++ [b] ++ e →
        ∃ t, t ∈ run (seq A (seq (grp n Q) (seq (chr b) eol))) { pos := 0, rest := s } := by
      intro e he hs
      obtain ⟨u, hu, hur⟩ := (run_lang A hA { pos := 0, rest := s } (q ++ [b] ++ e)).2 ⟨a, by simpa using hs, h1⟩
      obtain ⟨v, hv, hvr⟩ := (run_lang Q hQ u ([b] ++ e)).2 ⟨q, by rw [hur]; simp, h2⟩
      refine ⟨_, mem_seq.2 ⟨u, hu, mem_seq.2 ⟨_, mem_grp.2 ⟨v, hv, rfl⟩, mem_seq.2 ⟨_, mem_chr.2 ⟨e, ?_, rfl⟩,
        mem_eol.2 ⟨?_, rfl⟩⟩⟩⟩⟩
      · simpa using hvr
      · simpa using he
    rcases h3 with h3 | ⟨t, h3, h4⟩
    · exact key [] (.inl rfl) (by simpa using h3)
    · exact key ['\n'] (.inr rfl) (by rw [h4, h3])

theorem single_flat (s : PyStr) : singleQualifierRe.pyMatch s =
    (seq (seq referenceRe singlePathRe) (seq (grp 2 (plus (cls isAZDigit))) (seq (chr ']') eol))).pyMatch s := by
  simp [singleQualifierRe, pyMatch, run, List.flatMap_assoc]

theorem plain_qual : Plain (plus (cls isAZDigit)) := by simp [plus, Plain]

theorem lang_single {w : PyStr} : Lang (seq referenceRe singlePathRe) w ↔
    ∃ ref path, w = ref ++ py!"[" ++ path ++ py!"=" ∧ IsReference ref ∧ IsWordPath path := by
  constructor
  · rintro ⟨_, _, rfl, h1, h2⟩
    obtain ⟨r, rfl, h1'⟩ := lang_reference.1 h1
    obtain ⟨p, rfl, h2'⟩ := lang_singlePath.1 h2
    exact ⟨r, p, by simp, h1', h2'⟩
  · rintro ⟨r, p, rfl, h1, h2⟩
    exact ⟨r ++ py!"[", p ++ py!"=", by simp, lang_reference.2 ⟨r, rfl, h1⟩, lang_singlePath.2 ⟨p, rfl, h2⟩⟩

theorem upTo_congr {P Q : PyStr → Prop} (h : ∀ s, P s ↔ Q s) (s : PyStr) : UpToNewline P s ↔ UpToNewline Q s := by
  unfold UpToNewline; simp only [h]

theorem singleForm_iff (s q : PyStr) : SingleForm s q ↔ ∃ a, Lang (seq referenceRe singlePathRe) a ∧
    Lang (plus (cls isAZDigit)) q ∧ UpToNewline (fun s => s = a ++ q ++ [']']) s := by
  unfold SingleForm
  rw [lang_qualifier]
  constructor
  · rintro ⟨⟨r, p, rfl, h1, h2⟩ | ⟨t, ⟨r, p, rfl, h1, h2⟩, rfl⟩, h3⟩
    · exact ⟨_, lang_single.2 ⟨r, p, rfl, h1, h2⟩, h3, .inl (by simp)⟩
    · exact ⟨_, lang_single.2 ⟨r, p, rfl, h1, h2⟩, h3, .inr ⟨_, rfl, by simp⟩⟩
  · rintro ⟨a, h1, h2, h3⟩
    obtain ⟨r, p, rfl, h4, h5⟩ := lang_single.1 h1
    refine ⟨?_, h2⟩
    rcases h3 with rfl | ⟨t, rfl, rfl⟩
    · exact .inl ⟨r, p, by simp, h4, h5⟩
    · exact .inr ⟨_, ⟨r, p, rfl, h4, h5⟩, by simp⟩

theorem multiForm_iff (s q : PyStr) : MultiForm s q ↔ ∃ a, Lang referenceRe a ∧
    Lang (plus multiItemRe) q ∧ UpToNewline (fun s => s = a ++ q ++ [']']) s := by
  unfold MultiForm
  have hp : (∃ parts : List PyStr, parts ≠ [] ∧ q = parts.flatten ∧ ∀ p ∈ parts, IsItem p ∨ ∃ i, p = i ++ py!"|" ∧ IsItem i) ↔
      Lang (plus multiItemRe) q := by
    rw [lang_plus]; simp only [lang_item]
  rw [hp]
  constructor
  · rintro ⟨⟨r, rfl, h1⟩ | ⟨t, ⟨r, rfl, h1⟩, rfl⟩, h3⟩
    · exact ⟨_, lang_reference.2 ⟨r, rfl, h1⟩, h3, .inl (by simp)⟩
    · exact ⟨_, lang_reference.2 ⟨r, rfl, h1⟩, h3, .inr ⟨_, rfl, by simp⟩⟩
  · rintro ⟨a, h1, h2, h3⟩
    obtain ⟨r, rfl, h4⟩ := lang_reference.1 h1
    refine ⟨?_, h2⟩
    rcases h3 with rfl | ⟨t, rfl, rfl⟩
    · exact .inl ⟨r, by simp, h4⟩
    · exact .inr ⟨_, ⟨r, rfl, h4⟩, by simp⟩

theorem plain_plus_item : Plain (plus multiItemRe) := ⟨plain_item, plain_item⟩

/-! ## uniqueness -/

theorem not_mem_of_class {p : Char → Bool} {c : Char} {s : PyStr} (h : ∀ x ∈ s, p x = true) (hc : p c = false) : c ∉ s :=
  fun hm => by rw [h c hm] at hc; cases hc

theorem reference_no {c : Char} (h1 : isAZ c = false) (h2 : isDigit c = false) (h3 : c ≠ ':' ∧ c ≠ '(' ∧ c ≠ ',' ∧ c ≠ ')')
    {r : PyStr} (h : IsReference r) : c ∉ r := by
  obtain ⟨seg, n, m, rfl, hs, hn, hm⟩ := h
  have e1 := not_mem_of_class (fun x hx => mem_capitals.1 (hs.2 x hx)) h1
  have e2 := not_mem_of_class hn.2 h2
  have e3 : c ∉ m := by
    rcases hm with hm | ⟨a, b, rfl, ha, hb⟩
    · exact not_mem_of_class hm.2 h2
    · have e4 := not_mem_of_class ha.2 h2
      have e5 := not_mem_of_class hb.2 h2
      simp [e4, e5, h3]
  simp [e1, e2, e3, h3]

theorem wordPath_no {c : Char} (h1 : isWord c = false) (h2 : c ≠ ':') {p : PyStr} (h : IsWordPath p) : c ∉ p := by
  obtain ⟨words, last, _, hw, h⟩ := h
  have e1 : c ∉ last := not_mem_of_class (hw last (by simp)).2 h1
  have e2 : c ∉ words.flatMap fun w => w ++ py!":" := by
    rw [List.mem_flatMap]
    rintro ⟨w, hm, hc⟩
    have := not_mem_of_class (hw w (by simp [hm])).2 h1
    simp [this, h2] at hc
  rcases h with rfl | rfl
  · rw [List.mem_append]; simp only [e1, e2, or_self, not_false_eq_true]
  · rw [List.mem_append, List.mem_append]; simp [e1, e2, h2]

theorem qualifier_no {c : Char} (h1 : isAZ c = false) (h2 : isDigit c = false) {q : PyStr} (h : IsQualifier q) : c ∉ q := by
  intro hm
  rcases h.2 c hm with h | h
  · rw [mem_capitals, h1] at h; cases h
  · rw [h2] at h; cases h

theorem split_at {c : Char} {u v u' v' : PyStr} (h : u ++ c :: v = u' ++ c :: v') (hu : c ∉ u) (hu' : c ∉ u') : u = u' ∧ v = v' := by
  have := split_unique (p := fun x => x != c) h (by
      rw [List.all_eq_true]; intro x hx; simp only [bne_iff_ne, ne_eq]; rintro rfl; exact hu hx)
    (by rw [List.all_eq_true]; intro x hx; simp only [bne_iff_ne, ne_eq]; rintro rfl; exact hu' hx) (by rintro x r h; cases h; simp) (by rintro x r h; cases h; simp)
  exact ⟨this.1, by simpa using this.2⟩

theorem upTo_bracket {x y s : PyStr} (h1 : UpToNewline (fun s => s = x ++ [']']) s) (h2 : UpToNewline (fun s => s = y ++ [']']) s) :
    x = y := by
  rcases h1 with h1 | ⟨t, h1, h1'⟩ <;> rcases h2 with h2 | ⟨t', h2, h2'⟩
  · rw [h1] at h2; exact (List.append_inj' h2 rfl).1
  · rw [h1] at h2'
    have := (List.append_inj' h2' rfl).2
    exact absurd this (by decide)
  · rw [h1'] at h2
    have := (List.append_inj' h2 rfl).2
    exact absurd this (by decide)
  · rw [h1', h1, h2] at h2'
    exact (List.append_inj' (List.append_inj' h2' rfl).1 rfl).1

theorem single_unique {a q a' q' : PyStr} (h : a ++ q = a' ++ q') (ha : Lang (seq referenceRe singlePathRe) a)
    (ha' : Lang (seq referenceRe singlePathRe) a') : q = q' := by
  obtain ⟨r, p, rfl, h1, h2⟩ := lang_single.1 ha
  obtain ⟨r', p', rfl, h1', h2'⟩ := lang_single.1 ha'
  have hr : ∀ {r}, IsReference r → '=' ∉ r := reference_no (by decide) (by decide) (by decide)
  have hp : ∀ {p}, IsWordPath p → '=' ∉ p := wordPath_no (by decide +kernel) (by decide)
  exact (split_at (c := '=') (u := r ++ py!"[" ++ p) (u' := r' ++ py!"[" ++ p') (by simpa using h)
    (by simp [hr h1, hp h2]) (by simp [hr h1', hp h2'])).2

theorem multi_unique {a q a' q' : PyStr} (h : a ++ q = a' ++ q') (ha : Lang referenceRe a) (ha' : Lang referenceRe a') : q = q' := by
  obtain ⟨r, rfl, h1⟩ := lang_reference.1 ha
  obtain ⟨r', rfl, h1'⟩ := lang_reference.1 ha'
  have hr : ∀ {r}, IsReference r → '[' ∉ r := reference_no (by decide) (by decide) (by decide)
  exact (split_at (c := '[') (u := r) (u' := r') (by simpa using h) (hr h1) (hr h1')).2

/-- the first pattern matches exactly the single form, and the group is the qualifier -/
theorem single_match (s : PyStr) :
    (∀ q, SingleForm s q → ∃ m, singleQualifierRe.pyMatch s = some m ∧ group m 2 = some q) ∧
    ((¬ ∃ q, SingleForm s q) → singleQualifierRe.pyMatch s = none) := by
  have hpl : Plain (seq referenceRe singlePathRe) := ⟨plain_reference, plain_singlePath⟩
  rw [single_flat]
  constructor
  · intro q hq
    obtain ⟨a, h1, h2, h3⟩ := (singleForm_iff s q).1 hq
    obtain ⟨m, hm⟩ := Option.isSome_iff_exists.1 ((match_isSome (n := 2) hpl plain_qual s).2 ⟨a, q, h1, h2, h3⟩)
    obtain ⟨a', q', h1', h2', h4, h3'⟩ := match_group hpl plain_qual hm
    have := single_unique (upTo_bracket h3 h3') h1 h1'
    exact ⟨m, hm, by rw [h4, this]⟩
  · intro h
    rw [← Option.not_isSome_iff_eq_none, match_isSome (n := 2) hpl plain_qual s]
    rintro ⟨a, q, h1, h2, h3⟩
    exact h ⟨q, (singleForm_iff s q).2 ⟨a, h1, h2, h3⟩⟩

/-- the second pattern matches exactly the multi form, and the group is the inner text -/
theorem multi_match (s : PyStr) :
    (∀ q, MultiForm s q → ∃ m, multiQualifierRe.pyMatch s = some m ∧ group m 2 = some q) ∧
    ((¬ ∃ q, MultiForm s q) → multiQualifierRe.pyMatch s = none) := by
  have hpl := plain_reference
  unfold multiQualifierRe
  constructor
  · intro q hq
    obtain ⟨a, h1, h2, h3⟩ := (multiForm_iff s q).1 hq
    obtain ⟨m, hm⟩ := Option.isSome_iff_exists.1 ((match_isSome (n := 2) hpl plain_plus_item s).2 ⟨a, q, h1, h2, h3⟩)
    obtain ⟨a', q', h1', h2', h4, h3'⟩ := match_group hpl plain_plus_item hm
    have := multi_unique (upTo_bracket h3 h3') h1 h1'
    exact ⟨m, hm, by rw [h4, this]⟩
  · intro h
    rw [← Option.not_isSome_iff_eq_none, match_isSome (n := 2) hpl plain_plus_item s]
    rintro ⟨a, q, h1, h2, h3⟩
    exact h ⟨q, (multiForm_iff s q).2 ⟨a, h1, h2, h3⟩⟩

/-! ## the pieces -/

theorem afterEquals_ok {piece : PyStr} (h : '=' ∈ piece) : ∃ q, afterEquals piece = .ok q ∧ FirstValue piece q := by
  obtain ⟨a, b, rfl, ha⟩ := List.eq_append_cons_of_mem h
  have h1 := splitChar_sep (s := b) ha
  obtain ⟨w, ws, hw⟩ := List.exists_cons_of_ne_nil (splitChar_ne_nil '=' b)
  have h2 := join_splitChar '=' b
  rw [hw] at h1 h2
  refine ⟨w, by rw [afterEquals, h1], a, ?_⟩
  have hw' := h2.2 w (by simp)
  cases ws with
  | nil =>
    have := h2.1
    simp only [pyJoin] at this
    exact ⟨[], by rw [← this]; simp, ha, hw', .inl rfl⟩
  | cons v ws =>
    have := h2.1
    rw [pyJoin] at this
    · exact ⟨_, by rw [← this]; simp; rfl, ha, hw', .inr ⟨_, rfl⟩⟩
    · simp

theorem afterEquals_item {path q : PyStr} (h1 : '=' ∉ path) (h2 : '=' ∉ q) : afterEquals (path ++ py!"=" ++ q) = .ok q := by
  rw [afterEquals, List.append_assoc]
  have := splitChar_sep (s := q) h1
  rw [List.singleton_append, this, splitChar_none h2]

theorem afterEquals_nil : afterEquals [] = .error .indexError := rfl

theorem afterEquals_error {p : PyStr} {e : Exc} (h : afterEquals p = .error e) : e = .indexError := by
  unfold afterEquals at h
  split at h
  · cases h
  · cases h; rfl

theorem mapM_ok {α β : Type} {f : α → PyRes β} {l : List α} (h : ∀ x ∈ l, ∃ y, f x = .ok y) :
    ∃ ys, l.mapM f = .ok ys ∧ List.Forall₂ (fun x y => f x = .ok y) l ys := by
  induction l with
  | nil => exact ⟨[], rfl, .nil⟩
  | cons x l ih =>
    obtain ⟨y, hy⟩ := h x (by simp)
    obtain ⟨ys, h1, h2⟩ := ih (fun x hx => h x (by simp [hx]))
    refine ⟨y :: ys, ?_, .cons hy h2⟩
    rw [List.mapM_cons, hy, h1]; rfl

theorem mapM_indexError {l : List PyStr} (h : [] ∈ l) : l.mapM afterEquals = .error .indexError := by
  induction l with
  | nil => cases h
  | cons x l ih =>
    rw [List.mapM_cons]
    cases hx : afterEquals x with
    | error e => rw [afterEquals_error hx]; rfl
    | ok y =>
      rcases List.mem_cons.1 h with rfl | h
      · cases hx
      · rw [ih h]; rfl

theorem item_no {c : Char} (h1 : isAZ c = false) (h2 : isDigit c = false) (h3 : c ≠ ':') {s : PyStr} (h : IsElementPath s) : c ∉ s := by
  obtain ⟨seg, n, m, rfl, hs, hn, hm⟩ := h
  have e1 := not_mem_of_class hn.2 h2
  have e2 := not_mem_of_class hm.2 h2
  have e3 : c ∉ seg := by
    rcases hs with rfl | ⟨code, rfl, hc⟩
    · simp
    · have := not_mem_of_class (fun x hx => mem_capitals.1 (hc.2 x hx)) h1
      simp [this, h3]
  simp [e1, e2, e3, h3]

theorem item_facts {i : PyStr} (h : IsItem i) : '=' ∈ i ∧ '|' ∉ i := by
  obtain ⟨p, q, rfl, h1, h2⟩ := h
  have e1 := item_no (c := '|') (by decide) (by decide) (by decide) h1
  have e2 := qualifier_no (c := '|') (by decide) (by decide) h2
  simp [e1, e2]

theorem pieces_spec (parts : List PyStr) (h : ∀ p ∈ parts, IsItem p ∨ ∃ i, p = i ++ py!"|" ∧ IsItem i) :
    ∀ p ∈ splitChar '|' parts.flatten, '=' ∈ p ∨ (p = [] ∧ (parts = [] ∨ py!"|" <:+ parts.flatten)) := by
  induction parts with
  | nil =>
    intro p hp
    simp only [List.flatten_nil, splitChar, List.mem_singleton] at hp
    exact .inr ⟨hp, .inl rfl⟩
  | cons w parts ih =>
    have ih' := ih (fun p hp => h p (by simp [hp]))
    intro p hp
    rw [List.flatten_cons] at hp ⊢
    have hsuf : py!"|" <:+ parts.flatten → py!"|" <:+ w ++ parts.flatten := fun hs => hs.trans (List.suffix_append _ _)
    rcases h w (by simp) with hi | ⟨i, rfl, hi⟩
    · obtain ⟨e1, e2⟩ := item_facts hi
      obtain ⟨v, vs, hv⟩ := List.exists_cons_of_ne_nil (splitChar_ne_nil '|' parts.flatten)
      rw [splitChar_prefix e2 hv] at hp
      rcases List.mem_cons.1 hp with rfl | hp
      · exact .inl (by simp [e1])
      · rcases ih' p (by rw [hv]; simp [hp]) with h' | ⟨h', h'' | h''⟩
        · exact .inl h'
        · subst h''
          simp only [List.flatten_nil, splitChar, List.cons.injEq] at hv
          rw [← hv.2] at hp
          cases hp
        · exact .inr ⟨h', .inr (hsuf h'')⟩
    · obtain ⟨e1, e2⟩ := item_facts hi
      rw [List.append_assoc, List.singleton_append, splitChar_sep e2] at hp
      rcases List.mem_cons.1 hp with rfl | hp
      · exact .inl e1
      · rcases ih' p hp with h' | ⟨h', h'' | h''⟩
        · exact .inl h'
        · subst h''; exact .inr ⟨h', .inr ⟨i, by simp⟩⟩
        · exact .inr ⟨h', .inr (hsuf h'')⟩

theorem pieces_ok {s inner : PyStr} (h : MultiForm s inner) (hp : ¬ py!"|" <:+ inner) : ∀ p ∈ splitChar '|' inner, '=' ∈ p := by
  obtain ⟨_, parts, hne, rfl, hparts⟩ := h
  intro p hm
  rcases pieces_spec parts hparts p hm with h | ⟨_, h | h⟩
  · exact h
  · exact absurd h hne
  · exact absurd h hp

theorem multi_ok {s inner : PyStr} (hs : ¬ ∃ q, SingleForm s q) (h : MultiForm s inner) (hp : ¬ py!"|" <:+ inner) :
    ∃ pieces qs, inner = pyJoin py!"|" pieces ∧ (∀ p ∈ pieces, '|' ∉ p) ∧ List.Forall₂ FirstValue pieces qs ∧
      qualifiersOfBody s = .ok (some qs) := by
  obtain ⟨m, hm, hg⟩ := (multi_match s).1 inner h
  obtain ⟨qs, h1, h2⟩ := mapM_ok (f := afterEquals) (l := splitChar '|' inner) (fun p hm => by
    obtain ⟨q, hq, _⟩ := afterEquals_ok (pieces_ok h hp p hm)
    exact ⟨q, hq⟩)
  refine ⟨splitChar '|' inner, qs, (join_splitChar '|' inner).1.symm, (join_splitChar '|' inner).2, ?_, ?_⟩
  · have hall := pieces_ok h hp
    clear h1 hg
    generalize splitChar '|' inner = l at h2 hall
    induction h2 with
    | nil => exact .nil
    | cons h3 _ ih =>
      obtain ⟨q, h4, h5⟩ := afterEquals_ok (hall _ List.mem_cons_self)
      rw [h3] at h4
      cases h4
      exact .cons h5 (ih (fun p hp => hall p (by simp [hp])))
  · unfold qualifiersOfBody
    simp only [(single_match s).2 hs, hm, hg, Option.getD_some, h1]
    rfl

theorem multi_error {s inner : PyStr} (hs : ¬ ∃ q, SingleForm s q) (h : MultiForm s inner) (hp : py!"|" <:+ inner) :
    qualifiersOfBody s = .error .indexError := by
  obtain ⟨m, hm, hg⟩ := (multi_match s).1 inner h
  obtain ⟨x, rfl⟩ := hp
  unfold qualifiersOfBody
  simp only [(single_match s).2 hs, hm, hg, Option.getD_some]
  rw [mapM_indexError (by rw [splitChar_snoc]; simp)]
  rfl

theorem single_ok {s q : PyStr} (h : SingleForm s q) : qualifiersOfBody s = .ok (some [q]) := by
  obtain ⟨m, hm, hg⟩ := (single_match s).1 q h
  unfold qualifiersOfBody
  simp only [hm, hg, Option.getD_some]

theorem none_ok {s : PyStr} (hs : ¬ ∃ q, SingleForm s q) (h : ¬ ∃ q, MultiForm s q) : qualifiersOfBody s = .ok none := by
  unfold qualifiersOfBody
  rw [(single_match s).2 hs, (multi_match s).2 h]

/-- a dangling pipe is no single form -/
theorem dangling_not_single {s : PyStr} (h : DanglingPipe s) : ¬ ∃ q, SingleForm s q := by
  rintro ⟨q, hq⟩
  obtain ⟨inner, ⟨h1, _⟩, x, rfl⟩ := h
  have hmem : '|' ∈ s := by
    rcases h1 with ⟨r, rfl, _⟩ | ⟨t, ⟨r, rfl, _⟩, rfl⟩ <;> simp
  obtain ⟨hs, hq⟩ := hq
  have e1 := qualifier_no (c := '|') (by decide) (by decide) hq
  have : ∀ r p, IsReference r → IsWordPath p → '|' ∉ r ++ py!"[" ++ p ++ py!"=" ++ q ++ py!"]" := by
    intro r p hr hp
    have e2 := reference_no (c := '|') (by decide) (by decide) (by decide) hr
    have e3 := wordPath_no (c := '|') (by decide +kernel) (by decide) hp
    simp [e1, e2, e3]
  rcases hs with ⟨r, p, rfl, h2, h3⟩ | ⟨t, ⟨r, p, rfl, h2, h3⟩, rfl⟩
  · exact this r p h2 h3 hmem
  · rw [List.mem_append] at hmem
    rcases hmem with h | h
    · exact this r p h2 h3 h
    · simp at h

theorem qualifiers_cases (s : PyStr) :
    (DanglingPipe s ∧ qualifiersOfBody s = .error .indexError) ∨ (¬ DanglingPipe s ∧ ∃ r, qualifiersOfBody s = .ok r) := by
  by_cases hd : DanglingPipe s
  · obtain ⟨inner, h1, h2⟩ := id hd
    exact .inl ⟨hd, multi_error (dangling_not_single hd) h1 h2⟩
  · refine .inr ⟨hd, ?_⟩
    by_cases hs : ∃ q, SingleForm s q
    · obtain ⟨q, hq⟩ := hs
      exact ⟨_, single_ok hq⟩
    · by_cases hm : ∃ q, MultiForm s q
      · obtain ⟨q, hq⟩ := hm
        obtain ⟨_, qs, _, _, _, h⟩ := multi_ok hs hq (fun h => hd ⟨q, hq, h⟩)
        exact ⟨_, h⟩
      · exact ⟨_, none_ok hs hm⟩

/-- the qualifiers of a well formed attribute -/
theorem wellFormed_ok {s : PyStr} {qs : List PyStr} (h : WellFormedQualifiers s qs) : qualifiersOfBody s = .ok (some qs) := by
  obtain ⟨ref, items, hne, rfl, href, hi⟩ := h
  have hitems : ∀ i ∈ items, IsItem i := by
    clear hne
    induction hi with
    | nil => simp
    | cons h1 _ ih =>
      intro i hi
      rcases List.mem_cons.1 hi with rfl | hi
      · obtain ⟨p, h1⟩ := h1
        exact ⟨p, _, h1⟩
      · exact ih i hi
  have hnei : items ≠ [] := by
    rintro rfl
    cases hi
    exact hne rfl
  have hsplit := splitChar_join '|' items hnei (fun i h => (item_facts (hitems i h)).2)
  have hparts : ∀ l : List PyStr, l ≠ [] → (∀ i ∈ l, IsItem i) → (∃ parts : List PyStr, parts ≠ [] ∧ pyJoin py!"|" l = parts.flatten ∧
      ∀ p ∈ parts, IsItem p ∨ ∃ i, p = i ++ py!"|" ∧ IsItem i) := by
    intro l
    induction l with
    | nil => intro h; exact absurd rfl h
    | cons a l ih =>
      intro _ h
      cases l with
      | nil => exact ⟨[a], by simp, by simp [pyJoin], by simpa using .inl (h a (by simp))⟩
      | cons b l =>
        obtain ⟨parts, h1, h2, h3⟩ := ih (by simp) (fun i hi => h i (by simp [hi]))
        refine ⟨(a ++ py!"|") :: parts, by simp, ?_, ?_⟩
        · rw [pyJoin]
          · rw [h2]; simp
          · simp
        · intro p hp
          rcases List.mem_cons.1 hp with rfl | hp
          · exact .inr ⟨a, rfl, h a (by simp)⟩
          · exact h3 p hp
  have hmulti : MultiForm (ref ++ py!"[" ++ pyJoin py!"|" items ++ py!"]") (pyJoin py!"|" items) :=
    ⟨.inl ⟨ref, rfl, href⟩, hparts items hnei hitems⟩
  match items, qs, hi with
  | [item], [q], .cons ⟨path, h1, h2, h3⟩ .nil =>
    apply single_ok
    refine ⟨.inl ⟨ref, path, ?_, href, ?_⟩, h3⟩
    · rw [h1]; simp [pyJoin]
    · obtain ⟨seg, n, m, rfl, h4, h5, h6⟩ := h2
      have dw : ∀ c, isDigit c = true → isWord c = true := digit_isWord
      have aw : ∀ c, isAZ c = true → isWord c = true := az_isWord
      rcases h4 with rfl | ⟨code, rfl, h4⟩
      · refine ⟨[n], m, by simp, ?_, .inl (by simp)⟩
        intro w hw
        simp only [List.mem_cons, List.not_mem_nil, or_false] at hw
        rcases hw with rfl | rfl
        · exact ⟨h6.1, fun c hc => dw c (h6.2 c hc)⟩
        · exact ⟨h5.1, fun c hc => dw c (h5.2 c hc)⟩
      · refine ⟨[code, n], m, by simp, ?_, .inl (by simp)⟩
        intro w hw
        simp only [List.mem_cons, List.not_mem_nil, or_false] at hw
        rcases hw with rfl | rfl | rfl
        · exact ⟨h6.1, fun c hc => dw c (h6.2 c hc)⟩
        · exact ⟨h4.1, fun c hc => aw c (mem_capitals.1 (h4.2 c hc))⟩
        · exact ⟨h5.1, fun c hc => dw c (h5.2 c hc)⟩
  | item :: item' :: items, q :: q' :: qs, hi =>
    have hns : ¬ ∃ q, SingleForm (ref ++ py!"[" ++ pyJoin py!"|" (item :: item' :: items) ++ py!"]") q := by
      rintro ⟨x, hx, hq⟩
      have e1 := qualifier_no (c := '|') (by decide) (by decide) hq
      have hmem : '|' ∈ ref ++ py!"[" ++ pyJoin py!"|" (item :: item' :: items) ++ py!"]" := by
        rw [pyJoin]
        · simp
        · simp
      have key : ∀ r p, IsReference r → IsWordPath p → '|' ∉ r ++ py!"[" ++ p ++ py!"=" ++ x ++ py!"]" := by
        intro r p hr hp
        have e2 := reference_no (c := '|') (by decide) (by decide) (by decide) hr
        have e3 := wordPath_no (c := '|') (by decide +kernel) (by decide) hp
        simp [e1, e2, e3]
      rcases hx with ⟨r, p, h1, h2, h3⟩ | ⟨t, ⟨r, p, rfl, h2, h3⟩, h4⟩
      · rw [h1] at hmem; exact key r p h2 h3 hmem
      · rw [h4, List.mem_append] at hmem
        rcases hmem with h | h
        · exact key r p h2 h3 h
        · simp at h
    obtain ⟨m, hm, hg⟩ := (multi_match _).1 _ hmulti
    unfold qualifiersOfBody
    simp only [(single_match _).2 hns, hm, hg, Option.getD_some]
    have hmap : ∀ (l qs : List PyStr), List.Forall₂ (fun item q => ∃ path, item = path ++ py!"=" ++ q ∧ IsElementPath path ∧
        IsQualifier q) l qs → l.mapM afterEquals = .ok qs := by
      intro l qs h
      induction h with
      | nil => rfl
      | cons h1 _ ih =>
        obtain ⟨path, rfl, h2, h3⟩ := h1
        rw [List.mapM_cons, ih, afterEquals_item (item_no (by decide) (by decide) (by decide) h2)
          (qualifier_no (by decide) (by decide) h3)]
        rfl
    rw [hsplit, hmap _ _ hi]
    rfl
where
  digit_isWord : ∀ c, isDigit c = true → isWord c = true := by
    intro c h
    simp only [isDigit, isWord, List.any_eq_true, Bool.and_eq_true, decide_eq_true_eq] at h ⊢
    obtain ⟨r, hr, h1, h2⟩ := h
    have key : digitRanges.all (fun r => wordRanges.any fun w => decide (w.1 ≤ r.1) && decide (r.2 ≤ w.2)) = true := by
      decide +kernel
    obtain ⟨w, hw, h3⟩ := List.any_eq_true.1 (List.all_eq_true.1 key r hr)
    simp only [Bool.and_eq_true, decide_eq_true_eq] at h3
    exact ⟨w, hw, Nat.le_trans h3.1 h1, Nat.le_trans h2 h3.2⟩
  az_isWord : ∀ c, isAZ c = true → isWord c = true := by
    intro c h
    simp only [isAZ, isWord, List.any_eq_true, Bool.and_eq_true, decide_eq_true_eq] at h ⊢
    exact ⟨(65, 90), by decide +kernel, h.1, h.2⟩

theorem firstValue_unique {p q q' : PyStr} (h : FirstValue p q) (h' : FirstValue p q') : q = q' := by
  obtain ⟨b, a, rfl, h1, h2, h3⟩ := h
  obtain ⟨b', a', h4, h1', h2', h3'⟩ := h'
  have := split_at (c := '=') (u := b) (v := q ++ a) (u' := b') (v' := q' ++ a') (by simpa using h4) h1 h1'
  have h5 := this.2
  rcases h3 with rfl | ⟨r, rfl⟩ <;> rcases h3' with rfl | ⟨r', rfl⟩
  · simpa using h5
  · exfalso; apply h2; rw [List.append_nil] at h5; rw [h5]; simp
  · exfalso; apply h2'; rw [List.append_nil] at h5; rw [← h5]; simp
  · exact (split_at h5 h2 h2').1

theorem forall₂_unique {α β : Type} {R : α → β → Prop} (hR : ∀ a b c, R a b → R a c → b = c) {l : List α} {m m' : List β}
    (h : List.Forall₂ R l m) (h' : List.Forall₂ R l m') : m = m' := by
  induction h generalizing m' with
  | nil => cases h'; rfl
  | cons h1 _ ih =>
    cases h' with
    | cons h2 h3 => rw [hR _ _ _ h1 h2, ih h3]

theorem readsAs_iff (s : PyStr) (qs : List PyStr) : qualifiersOfBody s = .ok (some qs) ↔ ReadsAs s qs := by
  constructor
  · intro h
    by_cases hs : ∃ q, SingleForm s q
    · obtain ⟨q, hq⟩ := hs
      rw [single_ok hq] at h
      cases h
      exact .inl ⟨q, hq, rfl⟩
    · by_cases hm : ∃ q, MultiForm s q
      · obtain ⟨inner, hq⟩ := hm
        by_cases hd : py!"|" <:+ inner
        · rw [multi_error hs hq hd] at h; cases h
        · obtain ⟨pieces, qs', rfl, h1, h2, h3⟩ := multi_ok hs hq hd
          rw [h] at h3
          cases h3
          refine .inr ⟨hs, pieces, hq, ?_, h1, h2⟩
          rintro rfl
          obtain ⟨_, parts, h4, h5, h6⟩ := hq
          obtain ⟨p, parts, rfl⟩ := List.exists_cons_of_ne_nil h4
          have h7 : p = [] := by
            have : ([] : PyStr) = p ++ parts.flatten := by simpa [pyJoin] using h5
            simpa using congrArg (List.take p.length) this
          subst h7
          rcases h6 [] (by simp) with h | ⟨i, h, _⟩
          · have := (item_facts h).1; cases this
          · simp at h
      · rw [none_ok hs hm] at h; cases h
  · rintro (⟨q, hq, rfl⟩ | ⟨hs, pieces, h1, h2, h3, h4⟩)
    · exact single_ok hq
    · have hsp := splitChar_join '|' pieces h2 h3
      have hd : ¬ py!"|" <:+ pyJoin py!"|" pieces := by
        rintro ⟨x, hx⟩
        have : [] ∈ pieces := by rw [← hsp, ← hx, splitChar_snoc]; simp
        obtain ⟨q, _, b, a, h, _⟩ := forall₂_left h4 this
        simp at h
      obtain ⟨pieces', qs', h5, h6, h7, h8⟩ := multi_ok hs h1 hd
      have hne : pieces' ≠ [] := by
        rintro rfl
        cases h7
        have : pyJoin py!"|" pieces = [] := by rw [h5]; rfl
        rw [this] at hsp
        have h0 : [] ∈ pieces := by rw [← hsp]; simp [splitChar]
        obtain ⟨q, _, b, a, h, _⟩ := forall₂_left h4 h0
        simp at h
      have : pieces' = pieces := by rw [← splitChar_join '|' pieces' hne h6, ← h5, hsp]
      subst this
      rw [h8, forall₂_unique (R := FirstValue) (fun _ _ _ => firstValue_unique) h4 h7]
where
  forall₂_left {α β : Type} {R : α → β → Prop} {l : List α} {m : List β} (h : List.Forall₂ R l m) {x : α} (hx : x ∈ l) :
      ∃ y, y ∈ m ∧ R x y := by
    induction h with
    | nil => cases hx
    | cons h1 _ ih =>
      rcases List.mem_cons.1 hx with rfl | hx
      · exact ⟨_, by simp, h1⟩
      · obtain ⟨y, hy, h⟩ := ih hx
        exact ⟨y, by simp [hy], h⟩

end Verif
