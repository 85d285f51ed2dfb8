import Verif.Spec.Csv
import Verif.Proofs.RegexLang
import Verif.Proofs.JsonPath
import Verif.Proofs.Dict
import Verif.Proofs.Matching
import Verif.Proofs.PyInt
/-!
# Lemmas about the CSV reader
-/

namespace Verif
open Re

/-! ## strip -/

theorem strip_eq_nil (s : PyStr) : strip s = [] ↔ ∀ c ∈ s, isSpace c = true := by
  have := strip_ne_nil s
  unfold NotBlank at this
  constructor
  · intro h c hc
    by_contra hc'
    exact this.2 ⟨c, hc, fun hw => hc' (mem_whiteSpace.1 hw)⟩ h
  · intro h
    by_contra h'
    obtain ⟨c, hc, hc'⟩ := this.1 h'
    exact hc' (mem_whiteSpace.2 (h c hc))

theorem dropWhile_head {α} {p : α → Bool} {s : List α} {c : α} {r : List α} (h : s.dropWhile p = c :: r) : p c = false := by
  induction s with
  | nil => cases h
  | cons x s ih =>
    rw [List.dropWhile_cons] at h
    split at h
    · exact ih h
    · rename_i hx
      cases h
      simpa using hx

theorem rstrip_last {s r : PyStr} {c : Char} (h : rstrip s = r ++ [c]) : isSpace c = false := by
  unfold rstrip at h
  have : s.reverse.dropWhile isSpace = c :: r.reverse := by
    rw [← List.reverse_reverse (s.reverse.dropWhile isSpace), h]; simp
  exact dropWhile_head this

theorem rstrip_prefix (s : PyStr) : rstrip s <+: s := by
  unfold rstrip
  have := List.dropWhile_suffix isSpace (l := s.reverse)
  have := List.reverse_prefix.2 this
  rwa [List.reverse_reverse] at this

theorem strip_last {s r : PyStr} {c : Char} (h : strip s = r ++ [c]) : isSpace c = false := rstrip_last h

theorem strip_head {s r : PyStr} {c : Char} (h : strip s = c :: r) : isSpace c = false := by
  unfold strip at h
  obtain ⟨t, ht⟩ := rstrip_prefix (lstrip s)
  rw [h] at ht
  exact dropWhile_head (s := s) (r := r ++ t) ht.symm

theorem lstrip_of_head {s : PyStr} (h : ∀ c r, s = c :: r → isSpace c = false) : lstrip s = s := by
  cases s with
  | nil => rfl
  | cons c s =>
    have := h c s rfl
    simp [lstrip, this]

theorem rstrip_of_last {s : PyStr} (h : ∀ r c, s = r ++ [c] → isSpace c = false) : rstrip s = s := by
  unfold rstrip
  have : (s.reverse.dropWhile isSpace) = s.reverse := lstrip_of_head (s := s.reverse) (by
    intro c r hr
    exact h r.reverse c (by rw [← List.reverse_reverse s, hr]; simp))
  rw [this, List.reverse_reverse]

theorem strip_strip (s : PyStr) : strip (strip s) = strip s := by
  rw [show strip (strip s) = rstrip (lstrip (strip s)) from rfl, lstrip_of_head (fun c r h => strip_head h),
    rstrip_of_last (fun r c h => strip_last h)]

theorem strip_no_newline {s t : PyStr} (h : strip s = t ++ ['\n']) : False := by
  have := strip_last h
  revert this; decide

theorem strip_cons_space {c : Char} {s : PyStr} (h : isSpace c = true) : strip (c :: s) = strip s := by
  simp [strip, lstrip, h]

theorem strip_mem {s : PyStr} {c : Char} (h : c ∈ strip s) : c ∈ s := by
  unfold strip at h
  exact (List.dropWhile_sublist isSpace).subset ((rstrip_prefix _).subset h)

/-! ## rows -/

theorem cell_eq {row : RawRow} {key t : PyStr} : row.cell key = some t ↔ dictGet key row = some (some t) := by
  unfold RawRow.cell
  cases dictGet key row <;> simp

theorem subscript_ok {row : RawRow} {key : PyStr} {v : Option PyStr} :
    row.subscript key = .ok v ↔ dictGet key row = some v := by
  unfold RawRow.subscript
  cases dictGet key row <;> simp

theorem cell_of_get {row : RawRow} {key : PyStr} {v : Option PyStr} (h : dictGet key row = some v) : row.cell key = v := by
  simp [RawRow.cell, h]

theorem replace_double : ∀ s : PyStr, replaceStrAux py!"  " py!" " 0 s = reduceBlanks s
  | [] => rfl
  | [c] => by
    unfold reduceBlanks
    by_cases hc : c = ' ' <;> simp [replaceStrAux, reduceBlanks, List.isPrefixOf]
  | c :: d :: s => by
    by_cases h : c = ' ' ∧ d = ' '
    · obtain ⟨rfl, rfl⟩ := h
      have : replaceStrAux py!"  " py!" " 0 (' ' :: ' ' :: s) = ' ' :: replaceStrAux py!"  " py!" " 0 s := by
        simp [replaceStrAux, List.isPrefixOf]
      rw [this, replace_double s]
      rfl
    · have : replaceStrAux py!"  " py!" " 0 (c :: d :: s) = c :: replaceStrAux py!"  " py!" " 0 (d :: s) := by
        rw [replaceStrAux, if_neg]
        intro hp
        rw [List.isPrefixOf_iff_prefix] at hp
        obtain ⟨r, hr⟩ := hp
        cases hr
        exact h ⟨rfl, rfl⟩
      rw [this, replace_double (d :: s)]
      refine (reduceBlanks.eq_2 c (d :: s) ?_).symm
      intro s' hs hd
      cases hd
      exact h ⟨hs, rfl⟩

theorem joinedHeading_replace (gs : List PyStr) :
    joinedHeading gs = replaceStr py!"  " py!" " (strip (gs.flatMap fun g => ' ' :: g)) := by
  rw [joinedHeading, trim_eq, replaceStr, replace_double]

theorem onlyContains_iff (row : RawRow) : onlyContainsSegmentGruppe row = true ↔ row.OtherwiseBlank := by
  unfold onlyContainsSegmentGruppe RawRow.OtherwiseBlank contentKeys
  rw [List.all_eq_true]
  refine forall_congr' fun key => forall_congr' fun _ => ?_
  cases h : dictGet key row with
  | none => simp [RawRow.cell, h]
  | some v =>
    cases v with
    | none => simp [RawRow.cell, h]
    | some t => simp [RawRow.cell, h, strip_eq_nil, mem_whiteSpace]

theorem sectionOnly?_iff (row : RawRow) (g : PyStr) : sectionOnly? row = some g ↔ SectionOnly row g := by
  unfold sectionOnly? SectionOnly
  cases h : dictGet py!"Segment Gruppe" row with
  | none => simp [RawRow.cell, h]
  | some v =>
    cases v with
    | none => simp [RawRow.cell, h]
    | some t =>
      simp only [RawRow.cell, h, Option.getD_some, Option.some.injEq]
      have hp : py!"SG".isPrefixOf t = true ↔ py!"SG" <+: t := List.isPrefixOf_iff_prefix
      have ho := onlyContains_iff row
      constructor
      · intro h1
        split at h1
        · rename_i hc
          simp only [Option.some.injEq] at h1
          subst h1
          simp only [Bool.and_eq_true, Bool.not_eq_true', List.isEmpty_eq_false_iff] at hc
          refine ⟨rfl, hc.1.1, fun h' => ?_, ho.1 hc.1.2⟩
          rw [hp.2 h'] at hc; simp at hc
        · cases h1
      · rintro ⟨rfl, h1, h2, h3⟩
        rw [if_pos]
        simp only [Bool.and_eq_true, Bool.not_eq_true', List.isEmpty_eq_false_iff]
        refine ⟨⟨h1, ho.2 h3⟩, ?_⟩
        cases hc : py!"SG".isPrefixOf t with
        | false => rfl
        | true => exact absurd (hp.1 hc) h2

theorem sectionOnly?_none (row : RawRow) : sectionOnly? row = none ↔ ¬ ∃ g, SectionOnly row g := by
  constructor
  · rintro h ⟨g, hg⟩
    rw [(sectionOnly?_iff row g).2 hg] at h; cases h
  · intro h
    cases hs : sectionOnly? row with
    | none => rfl
    | some g => exact absurd ⟨g, (sectionOnly?_iff row g).1 hs⟩ h

theorem artificialRow_ok {gs : List PyStr} {row h : RawRow}
    (he : artificialRow (gs.flatMap fun g => ' ' :: g) row = .ok h) : HeadingRow gs row h := by
  unfold artificialRow at he
  simp only [Bind.bind, Except.bind, pure, Except.pure] at he
  split at he
  · cases he
  · rename_i v hv
    rw [subscript_ok] at hv
    cases v with
    | none => cases he
    | some s =>
      simp only at he
      cases hi : pyInt s with
      | none => rw [hi] at he; cases he
      | some i =>
        rw [hi] at he
        simp only [Except.ok.injEq] at he
        subst he
        refine ⟨⟨s, i, by simp [RawRow.cell, hv], (pyInt_iff _ _).1 hi, rfl⟩, by rw [joinedHeading_replace]; rfl, ?_, ?_⟩
        · intro key hkey
          simp only [List.mem_cons, List.not_mem_nil, or_false] at hkey
          rcases hkey with rfl | rfl | rfl | rfl | rfl <;> rfl
        · rintro key ⟨v, hv⟩
          by_contra hk
          simp only [List.mem_cons, List.not_mem_nil, or_false, not_or] at hk
          obtain ⟨h1, h2, h3, h4, h5, h6, h7⟩ := hk
          simp [contentKeys, dictGet, h1, h2, h3, h4, h5, h6, h7, eq_comm] at hv

theorem artificialRow_exists {merged : PyStr} {row : RawRow} {t : PyStr} {i : Int} (h1 : row.cell [] = some t)
    (h2 : IntText t i) : ∃ h, artificialRow merged row = .ok h := by
  unfold artificialRow
  rw [subscript_ok.2 (cell_eq.1 h1)]
  simp only [Bind.bind, Except.bind, (pyInt_iff _ _).2 h2]
  exact ⟨_, rfl⟩

theorem merged_ne {gs : List PyStr} (h : gs ≠ []) : (gs.flatMap fun g => ' ' :: g).length > 0 := by
  cases gs with
  | nil => exact absurd rfl h
  | cons g gs => simp

theorem mergeLoop_some {merged : PyStr} {row : RawRow} {rows : List RawRow} {g : PyStr} (h : sectionOnly? row = some g) :
    mergeLoop merged (row :: rows) = mergeLoop (merged ++ py!" " ++ g) rows := by
  conv => lhs; unfold mergeLoop
  rw [h]

theorem mergeLoop_nil {row : RawRow} {rows : List RawRow} (h : sectionOnly? row = none) :
    mergeLoop [] (row :: rows) = (mergeLoop [] rows >>= fun result => pure (row :: result)) := by
  conv => lhs; unfold mergeLoop
  rw [h]
  rfl

theorem mergeLoop_heading {merged : PyStr} {row : RawRow} {rows : List RawRow} (h : sectionOnly? row = none)
    (hm : merged.length > 0) : mergeLoop merged (row :: rows) = (artificialRow merged row >>= fun heading =>
      mergeLoop [] rows >>= fun result => pure (heading :: row :: result)) := by
  conv => lhs; unfold mergeLoop
  rw [h]
  simp only [hm, if_true]

theorem mergeLoop_merged (rows hs : List RawRow) (gs : List PyStr) (hg : List.Forall₂ SectionOnly hs gs) (out : List RawRow)
    (h : mergeLoop (gs.flatMap fun g => ' ' :: g) rows = .ok out) : Merged (hs ++ rows) out := by
  induction rows generalizing hs gs out with
  | nil =>
    simp only [mergeLoop, Except.ok.injEq] at h
    subst h
    rw [List.append_nil]
    refine .nil ?_
    induction hg with
    | nil => simp
    | cons hx _ ih =>
      intro r hr
      rcases List.mem_cons.1 hr with rfl | hr
      · exact ⟨_, hx⟩
      · exact ih r hr
  | cons row rows ih =>
    cases hs' : sectionOnly? row with
    | some g =>
      rw [mergeLoop_some hs'] at h
      have := ih (hs ++ [row]) (gs ++ [g]) (List.rel_append hg (.cons ((sectionOnly?_iff _ _).1 hs') .nil)) out
        (by simpa using h)
      simpa using this
    | none =>
      have hr := (sectionOnly?_none row).1 hs'
      cases hg with
      | nil =>
        rw [List.flatMap_nil, mergeLoop_nil hs'] at h
        cases hl : mergeLoop [] rows with
        | error e => rw [hl] at h; cases h
        | ok result =>
          rw [hl] at h
          cases h
          exact .row hr (ih [] [] .nil result hl)
      | cons hx hrest =>
        rename_i x g hs gs
        rw [mergeLoop_heading hs' (merged_ne (by simp))] at h
        cases ha : artificialRow ((g :: gs).flatMap fun g => ' ' :: g) row with
        | error e => rw [ha] at h; cases h
        | ok heading =>
          rw [ha] at h
          cases hl : mergeLoop [] rows with
          | error e => rw [hl] at h; cases h
          | ok result =>
            rw [hl] at h
            cases h
            exact .headings (by simp) (.cons hx hrest) hr (artificialRow_ok ha) (ih [] [] .nil result hl)

theorem mergeLoop_headings (hs : List RawRow) (gs : List PyStr) (hg : List.Forall₂ SectionOnly hs gs) (merged : PyStr)
    (rows : List RawRow) : mergeLoop merged (hs ++ rows) = mergeLoop (merged ++ gs.flatMap fun g => ' ' :: g) rows := by
  induction hg generalizing merged with
  | nil => simp
  | cons hx _ ih =>
    rw [List.cons_append, mergeLoop_some ((sectionOnly?_iff _ _).2 hx), ih]
    simp

theorem merged_exists {rows out : List RawRow} (h : Merged rows out) : ∃ out', mergeLoop [] rows = .ok out' := by
  induction h with
  | nil h =>
    rename_i hs
    obtain ⟨gs, hg⟩ : ∃ gs, List.Forall₂ SectionOnly hs gs := by
      induction hs with
      | nil => exact ⟨[], .nil⟩
      | cons x hs ih =>
        obtain ⟨gs, hgs⟩ := ih (fun r hr => h r (by simp [hr]))
        obtain ⟨g, hg⟩ := h x (by simp)
        exact ⟨g :: gs, .cons hg hgs⟩
    have := mergeLoop_headings hs gs hg [] []
    rw [List.append_nil] at this
    exact ⟨[], this⟩
  | row h _ ih =>
    obtain ⟨o, ho⟩ := ih
    exact ⟨_, by rw [mergeLoop_nil ((sectionOnly?_none _).2 h), ho]; rfl⟩
  | headings ne hg hr hh _ ih =>
    rename_i hs gs r h rows out _
    obtain ⟨o, ho⟩ := ih
    obtain ⟨⟨t, i, h1, h2, _⟩, _⟩ := hh
    obtain ⟨a, ha⟩ := artificialRow_exists (merged := gs.flatMap fun g => ' ' :: g) h1 h2
    have hne : gs ≠ [] := by
      rintro rfl
      cases hg
      exact ne rfl
    refine ⟨a :: r :: o, ?_⟩
    rw [mergeLoop_headings hs gs hg, List.nil_append, mergeLoop_heading ((sectionOnly?_none _).2 hr) (merged_ne hne), ha, ho]
    rfl

/-! ## codes -/

theorem upperCode_char (c : Char) : entryChar c = true ↔ c ∈ py!"ABCDEFGHIJKLMNOPQRSTUVWXYZ0123456789-i" := by
  constructor
  · intro h
    have hn : c.toNat < 106 := by
      simp only [entryChar, isAZ, Bool.or_eq_true, Bool.and_eq_true, decide_eq_true_eq, beq_iff_eq] at h
      rcases h with ((h | h) | rfl) | rfl
      · omega
      · omega
      · decide
      · decide
    have key : ∀ n < 106, entryChar (Char.ofNat n) = true → Char.ofNat n ∈ py!"ABCDEFGHIJKLMNOPQRSTUVWXYZ0123456789-i" := by
      decide +kernel
    have := key c.toNat hn
    rw [Char.ofNat_toNat] at this
    exact this h
  · intro h
    revert c
    decide

theorem lang_upperCode (s : PyStr) : Lang (.seq (.cls entryChar) (.plus (.cls entryChar))) s ↔
    2 ≤ s.length ∧ ∀ c ∈ s, c ∈ py!"ABCDEFGHIJKLMNOPQRSTUVWXYZ0123456789-i" := by
  rw [Lang]
  simp only [lang_plus_cls]
  constructor
  · rintro ⟨u, v, rfl, ⟨c, rfl, hc⟩, hv, h⟩
    refine ⟨?_, ?_⟩
    · have := List.length_pos_iff.2 hv
      simp only [List.length_append, List.length_singleton]; omega
    · intro x hx
      rcases List.mem_append.1 hx with hx | hx
      · rw [List.mem_singleton.1 hx]; exact (upperCode_char c).1 hc
      · exact (upperCode_char x).1 (h x hx)
  · rintro ⟨h1, h2⟩
    match s, h1, h2 with
    | c :: d :: s, _, h2 =>
      exact ⟨[c], d :: s, rfl, ⟨c, rfl, (upperCode_char c).2 (h2 c (by simp))⟩, by simp,
        fun x hx => (upperCode_char x).2 (h2 x (List.mem_cons_of_mem _ hx))⟩

theorem prefix_mp (s : PyStr) : (¬ ∃ w, w <+: s ∧ Lang (.str py!"MP-ID") w) ↔ ¬ py!"MP-ID" <+: s := by
  simp only [lang_str]
  constructor
  · intro h h'; exact h ⟨_, h', rfl⟩
  · rintro h ⟨w, h', rfl⟩; exact h h'

theorem valuePoolEntryRe_iff (s : PyStr) : (valuePoolEntryRe.pyMatch s).isSome = true ↔ LooksLikeGroup s := by
  unfold valuePoolEntryRe LooksLikeGroup IsUpperCode
  rw [pyMatch_anchored_nla (.str py!"MP-ID") (.seq (.cls entryChar) (.plus (.cls entryChar))) (plain_str _)
    ⟨trivial, trivial, trivial⟩, prefix_mp]
  simp only [lang_upperCode]
  constructor
  · rintro ⟨h, h1 | ⟨t, rfl, h1⟩⟩
    · exact .inl ⟨h1.1, h1.2, h⟩
    · exact .inr ⟨t, rfl, h1.1, h1.2, fun h' => h (h'.trans (List.prefix_append _ _))⟩
  · rintro (⟨h1, h2, h⟩ | ⟨t, rfl, h1, h2, h⟩)
    · exact ⟨h, .inl ⟨h1, h2⟩⟩
    · refine ⟨fun h' => ?_, .inr ⟨t, rfl, h1, h2⟩⟩
      rcases List.prefix_concat_iff.1 h' with h'' | h''
      · exact absurd (congrArg List.getLast? h'') (by simp)
      · exact h h''

theorem isSegmentGroup_iff (x : Option PyStr) : isSegmentGroup x = true ↔ ∃ g, x = some g ∧ LooksLikeGroup g := by
  unfold isSegmentGroup
  split
  · simp
  · simp only [Bool.false_eq_true, Option.some.injEq, exists_eq_left', false_iff]
    rintro (h | ⟨t, h, _⟩)
    · exact absurd h.1 (by decide)
    · simp at h
  · rename_i s _
    rw [valuePoolEntryRe_iff]; simp

/-- no newline at the end -/
theorem anchored_stripped {r : Re} {s t : PyStr} (hr : Plain r) (hs : s = strip t) :
    ((seq bol (seq r eol)).pyMatch s).isSome = true ↔ Lang r s := by
  rw [pyMatch_anchored r hr]
  constructor
  · rintro (h | ⟨u, h, _⟩)
    · exact h
    · exact absurd (hs.symm.trans h) strip_no_newline
  · exact .inl

theorem lang_numeric (s : PyStr) : Lang (.seq (.plus (.cls isDigit)) (.seq (.opt (.seq (.chr '.') (.plus (.cls isDigit))))
    (.opt (.cls isaz)))) s ↔ IsNumericCode s := by
  simp only [Lang, lang_plus_cls, lang_opt, lang_chr]
  constructor
  · rintro ⟨u, v, rfl, ⟨h1, h2⟩, w, x, rfl, h3, h4⟩
    refine ⟨u, w, x, by simp, h1, h2, ?_, ?_⟩
    · rcases h3 with ⟨a, e, rfl, rfl, h5, h6⟩ | rfl
      · exact .inr ⟨e, rfl, h5, h6⟩
      · exact .inl rfl
    · rcases h4 with ⟨c, rfl, h5⟩ | rfl
      · exact .inr ⟨c, rfl, mem_smallLetters.2 h5⟩
      · exact .inl rfl
  · rintro ⟨n, d, l, rfl, h1, h2, h3, h4⟩
    refine ⟨n, d ++ l, by simp, ⟨h1, h2⟩, d, l, rfl, ?_, ?_⟩
    · rcases h3 with rfl | ⟨e, rfl, h5, h6⟩
      · exact .inr rfl
      · exact .inl ⟨['.'], e, rfl, rfl, h5, h6⟩
    · rcases h4 with rfl | ⟨c, rfl, h5⟩
      · exact .inr rfl
      · exact .inl ⟨c, rfl, mem_smallLetters.1 h5⟩

theorem lang_ebd (s : PyStr) : Lang (.seq (.grp 1 (.cls fun c => c == 'E' || c == 'G')) (.seq (.chr '_') (.plus (.cls isDigit)))) s ↔
    IsEbdCode s := by
  simp only [Lang, lang_plus_cls, lang_chr, Bool.or_eq_true, beq_iff_eq]
  constructor
  · rintro ⟨u, v, rfl, ⟨c, rfl, hc⟩, w, d, rfl, rfl, h1, h2⟩
    refine ⟨d, ?_, h1, h2⟩
    rcases hc with rfl | rfl
    · exact .inl rfl
    · exact .inr rfl
  · rintro ⟨d, rfl | rfl, h1, h2⟩
    · exact ⟨['E'], '_' :: d, rfl, ⟨'E', rfl, .inl rfl⟩, ['_'], d, rfl, rfl, h1, h2⟩
    · exact ⟨['G'], '_' :: d, rfl, ⟨'G', rfl, .inr rfl⟩, ['_'], d, rfl, rfl, h1, h2⟩

/-- the anchored part of the GABi pattern -/
def gabiBody : Re :=
  .seq (.opt (.grp 1 (.str py!"GABi"))) (.seq (.plus (.cls fun c => isAZ c || isDigit c || c == '-'))
    (.opt (.grp 2 (.seq (.str py!"RLM") (.seq (.grp 3 (.alt (.chr 'o') (.chr 'm'))) (.chr 'T'))))))

theorem gabi_flat (s : PyStr) : gabiQualifierRe.pyMatch s = (seq bol (seq (nla (.str py!"MP-ID")) (seq gabiBody eol))).pyMatch s := by
  simp only [gabiQualifierRe, gabiBody, pyMatch, run, List.flatMap_assoc]

theorem lang_gabi (s : PyStr) : Lang gabiBody s ↔ ∃ p m q : PyStr, s = p ++ m ++ q ∧ (p = [] ∨ p = py!"GABi") ∧
    (q = [] ∨ q = py!"RLMoT" ∨ q = py!"RLMmT") ∧ m ≠ [] ∧ ∀ c ∈ m, isAZ c = true ∨ isDigit c = true ∨ c = '-' := by
  unfold gabiBody
  simp only [Lang, lang_plus_cls, lang_opt, lang_chr, lang_str, Bool.or_eq_true, beq_iff_eq, or_assoc]
  constructor
  · rintro ⟨p, x, rfl, hp, m, q, rfl, ⟨h1, h2⟩, hq⟩
    refine ⟨p, m, q, by simp, hp.symm, ?_, h1, h2⟩
    rcases hq with ⟨_, _, rfl, rfl, _, _, rfl, rfl | rfl, rfl⟩ | rfl
    · exact .inr (.inl rfl)
    · exact .inr (.inr rfl)
    · exact .inl rfl
  · rintro ⟨p, m, q, rfl, hp, hq, h1, h2⟩
    refine ⟨p, m ++ q, by simp, hp.symm, m, q, rfl, ⟨h1, h2⟩, ?_⟩
    rcases hq with rfl | rfl | rfl
    · exact .inr rfl
    · exact .inl ⟨py!"RLM", py!"oT", rfl, rfl, py!"o", py!"T", rfl, .inl rfl, rfl⟩
    · exact .inl ⟨py!"RLM", py!"mT", rfl, rfl, py!"m", py!"T", rfl, .inr rfl, rfl⟩

theorem plain_gabi : Plain gabiBody :=
  ⟨⟨plain_str _, trivial⟩, ⟨trivial, trivial⟩, ⟨plain_str _, ⟨trivial, trivial⟩, trivial⟩, trivial⟩

theorem isValuePoolEntry_strip (t : PyStr) : isValuePoolEntry (some (strip t)) = true ↔ LooksLikeEntry (strip t) := by
  have h1 : (valuePoolEntryRe.pyMatch (strip t)).isSome = true ↔ IsUpperCode (strip t) := by
    rw [valuePoolEntryRe_iff]
    constructor
    · rintro (h | ⟨u, h, _⟩)
      · exact h
      · exact absurd h strip_no_newline
    · exact .inl
  have h2 : (numericEntryRe.pyMatch (strip t)).isSome = true ↔ IsNumericCode (strip t) := by
    rw [← lang_numeric]
    exact anchored_stripped ⟨⟨trivial, trivial⟩, ⟨⟨trivial, trivial, trivial⟩, trivial⟩, trivial, trivial⟩ rfl
  have h3 : (ebdCodeRe.pyMatch (strip t)).isSome = true ↔ IsEbdCode (strip t) := by
    rw [← lang_ebd]
    exact anchored_stripped ⟨trivial, trivial, trivial, trivial⟩ rfl
  have h4 : (gabiQualifierRe.pyMatch (strip t)).isSome = true ↔ IsGabiCode (strip t) := by
    rw [gabi_flat, pyMatch_anchored_nla (.str py!"MP-ID") gabiBody (plain_str _) plain_gabi, prefix_mp]
    simp only [lang_gabi]
    simp only [IsGabiCode, mem_capitals]
    constructor
    · rintro ⟨h, h' | ⟨u, h', _⟩⟩
      · exact ⟨h, h'⟩
      · exact absurd h' strip_no_newline
    · rintro ⟨h, h'⟩; exact ⟨h, .inl h'⟩
  have h5 : ((strip t).length == 1 && (strip t).all isUpperFixed) = true ↔ ∃ c, strip t = [c] ∧ isUpperFixed c = true := by
    match strip t with
    | [] => simp
    | [c] => simp
    | c :: d :: s => simp
  unfold LooksLikeEntry
  rw [← h1, ← h2, ← h3, ← h4, ← h5]
  cases hs : strip t with
  | nil =>
    simp only [isValuePoolEntry, Bool.false_eq_true, false_iff]
    rw [← hs, h1, h2, h3, h4, hs]
    rintro (h | h | h | h | h)
    · exact absurd h.1 (by decide)
    · obtain ⟨n, d, l, h, hn, _⟩ := h
      simp only [List.nil_eq, List.append_eq_nil_iff] at h
      exact hn h.1.1
    · simp at h
    · obtain ⟨_, p, m, q, h, _, _, hn, _⟩ := h
      simp only [List.nil_eq, List.append_eq_nil_iff] at h
      exact hn h.1.2
    · obtain ⟨d, h | h, _⟩ := h <;> cases h
  | cons c s =>
    simp only [isValuePoolEntry]
    cases (valuePoolEntryRe.pyMatch (c :: s)).isSome <;> cases (numericEntryRe.pyMatch (c :: s)).isSome <;>
      cases ((c :: s).length == 1 && (c :: s).all isUpperFixed) <;> cases (gabiQualifierRe.pyMatch (c :: s)).isSome <;> simp

theorem nonBlank_eq (x : Option PyStr) : orNone? (x.map strip) = nonBlank x := by
  cases x with
  | none => rfl
  | some s =>
    simp only [Option.map_some, orNone?, orNone, nonBlank, trim_eq]
    by_cases h : strip s = [] <;> simp [h]

theorem isValuePoolEntry_iff (x : Option PyStr) :
    isValuePoolEntry (x.map strip) = true ↔ ∃ s, nonBlank x = some s ∧ LooksLikeEntry s := by
  cases x with
  | none => simp [isValuePoolEntry, nonBlank]
  | some t =>
    simp only [Option.map_some, nonBlank, trim_eq]
    by_cases h : strip t = []
    · simp [h, isValuePoolEntry]
    · rw [isValuePoolEntry_strip]; simp [h]

theorem entry_nonBlank {x : Option PyStr} (h : isValuePoolEntry (x.map strip) = true) : x.map strip = nonBlank x := by
  cases x with
  | none => rfl
  | some t =>
    simp only [Option.map_some, nonBlank, trim_eq]
    by_cases h' : strip t = []
    · simp [h', isValuePoolEntry] at h
    · simp [h']

theorem separate_spec (x y : Option PyStr) :
    Separated x y (separateValuePoolEntryAndName x y).1 (separateValuePoolEntryAndName x y).2 := by
  unfold separateValuePoolEntryAndName Separated
  rw [← isValuePoolEntry_iff]
  by_cases hx : isValuePoolEntry (x.map strip) = true
  · left
    refine ⟨hx, ?_⟩
    by_cases hy : isValuePoolEntry (y.map strip) = true
    · simp only [hx, hy, Bool.not_true, Bool.and_false, Bool.false_eq_true, if_false, Bool.and_self, if_true]
      exact ⟨entry_nonBlank hx, entry_nonBlank hy⟩
    · simp only [hx, hy, Bool.not_false, Bool.and_self, if_true]
      exact ⟨entry_nonBlank hx, nonBlank_eq y⟩
  · right
    refine ⟨hx, ?_⟩
    simp only [hx, Bool.false_and, Bool.false_eq_true, if_false, nonBlank_eq, and_self]

/-! ## conditions -/

/-- no bracket -/
def nb (c : Char) : Bool := c != '[' && c != ']'

theorem star_stop {p : Char → Bool} {st : MSt} (h : ∀ c r, st.rest = c :: r → p c = false) :
    run (star true (cls p)) st = [st] := by
  simp only [run]
  cases hr : st.rest with
  | nil => rfl
  | cons c s =>
    have := h c s hr
    simp [iter, hr, this]

theorem star_cons {p : Char → Bool} {st : MSt} {c : Char} {s : PyStr} (hr : st.rest = c :: s) (hc : p c = true) :
    run (star true (cls p)) st = run (star true (cls p)) (adv st [c] s) ++ [st] := by
  conv => lhs; rw [show run (star true (cls p)) st = iter (run (cls p)) true st.rest.length st from by simp [run]]
  conv => rhs; rw [show run (star true (cls p)) (adv st [c] s) = iter (run (cls p)) true s.length (adv st [c] s) from by
    simp [run]]
  have h1 : run (cls p) st = [adv st [c] s] := by simp [run, hr, hc, adv]
  simp only [hr, List.length_cons, iter, h1, List.filter_cons, adv_rest]
  simp

/-- a greedy star first takes as much as possible -/
theorem star_head {p : Char → Bool} {st : MSt} {w s : PyStr} (hr : st.rest = w ++ s) (hw : ∀ c ∈ w, p c = true)
    (hs : ∀ c r, s = c :: r → p c = false) : (run (star true (cls p)) st).head? = some (adv st w s) := by
  induction w generalizing st with
  | nil =>
    rw [List.nil_append] at hr
    rw [star_stop (by rw [hr]; exact hs), ← hr, adv_nil]; rfl
  | cons c w ih =>
    rw [star_cons (s := w ++ s) hr (hw c (by simp)), List.head?_append,
      ih (st := adv st [c] (w ++ s)) rfl (fun x hx => hw x (by simp [hx])), adv_adv]
    rfl

theorem plus_head {p : Char → Bool} {st : MSt} {w s : PyStr} (hne : w ≠ []) (hr : st.rest = w ++ s)
    (hw : ∀ c ∈ w, p c = true) (hs : ∀ c r, s = c :: r → p c = false) :
    (run (plus (cls p)) st).head? = some (adv st w s) := by
  cases w with
  | nil => exact absurd rfl hne
  | cons c w =>
    have h1 : run (cls p) st = [adv st [c] (w ++ s)] := by simp [run, hr, hw c, adv]
    have : (run (plus (cls p)) st) = run (star true (cls p)) (adv st [c] (w ++ s)) := by
      rw [plus]
      conv => lhs; unfold run
      rw [h1]; simp
    rw [this, star_head (w := w) rfl (fun x hx => hw x (by simp [hx])) hs, adv_adv]
    rfl

theorem head?_flatMap_of_head {α β} {l : List α} {f : α → List β} {a : α} {b : β} (ha : l.head? = some a)
    (hb : (f a).head? = some b) : (l.flatMap f).head? = some b := by
  cases l with
  | nil => cases ha
  | cons x l =>
    simp only [List.head?_cons, Option.some.injEq] at ha
    subst ha
    rw [List.flatMap_cons, List.head?_append, hb]; rfl

/-- the part of the pattern that takes the text of a condition -/
def condText : Re := .seq (.grp 2 (.plus (.cls nb))) (.star true (.cls isSpace))

/-- the text ends here -/
def TextEnd (r : PyStr) : Prop := ∀ c s, r = c :: s → nb c = false

theorem textEnd_not_space {r : PyStr} (h : TextEnd r) : ∀ c s, r = c :: s → isSpace c = false := by
  intro c s hc
  have := h c s hc
  simp only [nb, Bool.and_eq_false_iff, bne_eq_false_iff_eq] at this
  rcases this with rfl | rfl <;> decide

theorem condText_head {st : MSt} {b r : PyStr} (hne : b ≠ []) (hr : st.rest = b ++ r) (hb : ∀ c ∈ b, nb c = true)
    (hend : TextEnd r) : ∃ t, (run condText st).head? = some t ∧ t.rest = r ∧ t.caps = (2, b) :: st.caps := by
  refine ⟨{ pos := st.pos + b.length, rest := r, caps := (2, b) :: st.caps }, ?_, rfl, rfl⟩
  have h1 := plus_head hne hr hb hend
  have h2 : (run (grp 2 (plus (cls nb))) st).head? =
      some { pos := st.pos + b.length, rest := r, caps := (2, b) :: st.caps } := by
    rw [run, List.head?_map, h1]
    simp [hr, adv]
  unfold condText
  conv => lhs; unfold run
  refine head?_flatMap_of_head h2 ?_
  rw [star_stop]
  · rfl
  · exact textEnd_not_space hend

theorem condText_none {st : MSt} (hend : TextEnd st.rest) : run condText st = [] := by
  rw [List.eq_nil_iff_forall_not_mem]
  intro t ht
  obtain ⟨u, hu, _⟩ := mem_seq.1 ht
  obtain ⟨v, hv, _⟩ := mem_grp.1 hu
  obtain ⟨w, s, hne, hr, hw, _⟩ := mem_plus_cls.1 hv
  cases w with
  | nil => exact hne rfl
  | cons c w =>
    have := hend c (w ++ s) hr
    simp only [List.all_cons, Bool.and_eq_true] at hw
    rw [hw.1] at this; cases this

theorem spaceText_head {st : MSt} {b r : PyStr} (hne : b ≠ []) (hr : st.rest = b ++ r) (hb : ∀ c ∈ b, nb c = true)
    (hend : TextEnd r) : ∃ t x, ((run (star true (cls isSpace)) st).flatMap (run condText)).head? = some t ∧ t.rest = r ∧
      t.caps = (2, x) :: st.caps ∧ strip x = strip b := by
  induction b generalizing st with
  | nil => exact absurd rfl hne
  | cons c b ih =>
    by_cases hc : isSpace c = true
    · rw [star_cons (s := b ++ r) hr hc, List.flatMap_append]
      cases b with
      | nil =>
        have hempty : (run (star true (cls isSpace)) (adv st [c] ([] ++ r))).flatMap (run condText) = [] := by
          rw [star_stop (by simpa using textEnd_not_space hend)]
          simp [condText_none (st := adv st [c] r) hend]
        rw [hempty, List.nil_append, List.flatMap_singleton]
        obtain ⟨t, h1, h2, h3⟩ := condText_head hne hr hb hend
        exact ⟨t, [c], h1, h2, h3, rfl⟩
      | cons d b =>
        obtain ⟨t, x, h1, h2, h3, h4⟩ := ih (st := adv st [c] (d :: b ++ r)) (by simp) rfl
          (fun y hy => hb y (List.mem_cons_of_mem _ hy))
        refine ⟨t, x, by rw [List.head?_append, h1]; rfl, h2, h3, ?_⟩
        rw [h4, strip_cons_space hc]
    · rw [star_stop (by rw [hr]; rintro y s h; cases h; simpa using hc), List.flatMap_singleton]
      obtain ⟨t, h1, h2, h3⟩ := condText_head hne hr hb hend
      exact ⟨t, c :: b, h1, h2, h3, rfl⟩

/-- a condition at the beginning -/
def CondHere (s key body rest : PyStr) : Prop :=
  s = '[' :: key ++ ']' :: body ++ rest ∧ key ≠ [] ∧ (∀ c ∈ key, isDigit c = true) ∧
    body ≠ [] ∧ (∀ c ∈ body, c ≠ '[' ∧ c ≠ ']') ∧ (rest = [] ∨ ∃ r, rest = '[' :: r ∨ rest = ']' :: r)

theorem textEnd_iff (r : PyStr) : TextEnd r ↔ (r = [] ∨ ∃ s, r = '[' :: s ∨ r = ']' :: s) := by
  cases r with
  | nil => simp [TextEnd]
  | cons c s =>
    simp only [TextEnd, List.cons.injEq, and_imp, reduceCtorEq, false_or, nb, Bool.and_eq_false_iff, bne_eq_false_iff_eq]
    constructor
    · intro h
      rcases h c s rfl rfl with rfl | rfl
      · exact ⟨s, .inl ⟨rfl, rfl⟩⟩
      · exact ⟨s, .inr ⟨rfl, rfl⟩⟩
    · rintro ⟨s', ⟨rfl, rfl⟩ | ⟨rfl, rfl⟩⟩ c s rfl rfl
      · exact .inl rfl
      · exact .inr rfl

theorem nb_iff (c : Char) : nb c = true ↔ c ≠ '[' ∧ c ≠ ']' := by simp [nb]

/-- the states after `[key]` -/
def keyRe : Re := .seq (.chr '[') (.seq (.grp 1 (.plus (.cls isDigit))) (.chr ']'))

theorem run_bedingungRe (st : MSt) :
    run bedingungRe st = (run keyRe st).flatMap fun u => (run (star true (cls isSpace)) u).flatMap (run condText) := by
  simp only [bedingungRe, keyRe, condText, run, List.flatMap_assoc]
  rfl

theorem mem_keyRe {pos : Nat} {k s : PyStr} (hne : k ≠ []) (hk : ∀ c ∈ k, isDigit c = true) {t : MSt} :
    t ∈ run keyRe { pos := pos, rest := '[' :: k ++ ']' :: s } ↔
      t = { pos := pos + k.length + 2, rest := s, caps := [(1, k)] } := by
  have hend : ∀ c r, (']' :: s : PyStr) = c :: r → isDigit c = false := by rintro c r h; cases h; decide
  simp only [keyRe, mem_seq, mem_chr, mem_grp, mem_plus_cls]
  constructor
  · rintro ⟨u, ⟨s1, h1, rfl⟩, v, ⟨_, ⟨w, s2, hw, h2, hall, rfl⟩, rfl⟩, s3, h3, rfl⟩
    simp only [adv_rest] at h1 h2 h3
    have hs1 : s1 = k ++ (']' :: s) := by simpa using h1.symm
    subst hs1 h3
    obtain ⟨rfl, h4⟩ := split_unique h2 (List.all_eq_true.2 hk) hall hend (by rintro c r h; cases h; decide)
    obtain ⟨_, rfl⟩ := List.cons.inj h4
    simp only [adv, MSt.mk.injEq, true_and]
    constructor
    · simp only [List.length_cons, List.length_nil]; omega
    · simp
  · rintro rfl
    refine ⟨_, ⟨k ++ (']' :: s), by simp, rfl⟩, _, ⟨_, ⟨k, ']' :: s, hne, rfl, List.all_eq_true.2 hk, rfl⟩, rfl⟩, s, rfl, ?_⟩
    simp only [adv, MSt.mk.injEq, true_and]
    constructor
    · simp only [List.length_cons, List.length_nil]; omega
    · simp

theorem bedingung_match {pos : Nat} {s k b r : PyStr} (h : CondHere s k b r) :
    ∃ t, (run bedingungRe { pos := pos, rest := s }).head? = some t ∧ t.rest = r ∧
      group t 1 = some k ∧ ∃ x, group t 2 = some x ∧ strip x = strip b := by
  obtain ⟨rfl, h1, h2, h3, h4, h5⟩ := h
  rw [run_bedingungRe]
  have hend := (textEnd_iff r).2 h5
  obtain ⟨t, x, ht, hr, hc, hx⟩ := spaceText_head
    (st := { pos := pos + k.length + 2, rest := b ++ r, caps := [(1, k)] }) h3 rfl (fun c hc => (nb_iff c).2 (h4 c hc)) hend
  refine ⟨t, ?_, hr, by simp [group, hc], x, by simp [group, hc], hx⟩
  refine head?_flatMap_singleton (a := { pos := pos + k.length + 2, rest := b ++ r, caps := [(1, k)] }) (fun u => ?_) ht
  rw [← mem_keyRe h1 h2]
  simp

theorem bedingung_none {pos : Nat} {s : PyStr} (h : ¬ ∃ k b r, CondHere s k b r) :
    run bedingungRe { pos := pos, rest := s } = [] := by
  rw [List.eq_nil_iff_forall_not_mem]
  intro t ht
  apply h
  rw [run_bedingungRe, List.mem_flatMap] at ht
  obtain ⟨u, hu, ht⟩ := ht
  obtain ⟨v, hv, ht⟩ := List.mem_flatMap.1 ht
  simp only [keyRe, mem_seq, mem_chr, mem_grp, mem_plus_cls] at hu
  obtain ⟨_, ⟨s1, h1, rfl⟩, _, ⟨_, ⟨k, s2, hne, h2, hall, rfl⟩, rfl⟩, s3, h3, rfl⟩ := hu
  simp only [adv_rest] at h1 h2 h3
  obtain ⟨w, s4, h4, hw, rfl⟩ := mem_star_cls.1 hv
  obtain ⟨u', hu', _⟩ := mem_seq.1 ht
  obtain ⟨u'', hu'', _⟩ := mem_grp.1 hu'
  obtain ⟨x, s5, hx, h5, hall', _⟩ := mem_plus_cls.1 hu''
  simp only [adv_rest] at h4 h5
  refine ⟨k, s3.takeWhile nb, s3.dropWhile nb, ?_, hne, List.all_eq_true.1 hall, ?_, ?_, ?_⟩
  · rw [h1, h2, h3]
    simp
  · rw [h4, h5]
    have : ∀ y ∈ w ++ x, nb y = true := by
      intro y hy
      rcases List.mem_append.1 hy with hy | hy
      · have := List.all_eq_true.1 hw y hy
        cases hn : nb y with
        | true => rfl
        | false =>
          simp only [nb, Bool.and_eq_false_iff, bne_eq_false_iff_eq] at hn
          rcases hn with rfl | rfl <;> exact absurd this (by decide)
      · exact List.all_eq_true.1 hall' y hy
    rw [← List.append_assoc, List.takeWhile_append_of_pos this]
    simp [hx]
  · intro c hc
    exact (nb_iff c).1 (mem_takeWhile_imp hc)
  · rw [← textEnd_iff]
    intro c r hr
    exact dropWhile_head hr

/-- the pairs found from a position on -/
def pairsFrom (fuel pos : Nat) (s : PyStr) : List (PyStr × PyStr) :=
  (findIterAux bedingungRe fuel pos s).map fun m => ((group m 1).getD [], strip ((group m 2).getD []))

theorem pairsFrom_here {fuel pos : Nat} {s k b r : PyStr} (h : CondHere s k b r) :
    ∃ pos', pairsFrom (fuel + 1) pos s = (k, strip b) :: pairsFrom fuel pos' r := by
  obtain ⟨t, h1, h2, h3, x, h4, h5⟩ := bedingung_match (pos := pos) h
  refine ⟨t.pos, ?_⟩
  unfold pairsFrom
  rw [findIterAux_match h1 (by rw [h2, h.1]; simp; omega), h2]
  simp [h3, h4, h5]

theorem pairsFrom_skip {fuel pos : Nat} {c : Char} {s : PyStr} (h : ¬ ∃ k b r, CondHere (c :: s) k b r) :
    pairsFrom (fuel + 1) pos (c :: s) = pairsFrom fuel (pos + 1) s := by
  unfold pairsFrom
  rw [findIterAux_noMatch (bedingung_none h)]

theorem pairsFrom_nil {fuel pos : Nat} : pairsFrom fuel pos [] = [] := by
  cases fuel with
  | zero => rfl
  | succ fuel =>
    unfold pairsFrom
    have : run bedingungRe { pos := pos, rest := [] } = [] := bedingung_none (by
      rintro ⟨k, b, r, h, _⟩; simp at h)
    simp [findIterAux, this]

theorem conditionAt_skip {c : Char} {s k b r : PyStr} (h : ¬ ∃ k b r, CondHere (c :: s) k b r) :
    ConditionAt (c :: s) k b r ↔ ConditionAt s k b r := by
  constructor
  · rintro ⟨⟨before, h1⟩, h2⟩
    cases before with
    | nil => exact absurd ⟨k, b, r, h1, h2⟩ h
    | cons x before =>
      simp only [List.cons_append, List.cons.injEq, List.append_assoc] at h1
      exact ⟨⟨before, by simpa using h1.2⟩, h2⟩
  · rintro ⟨⟨before, h1⟩, h2⟩
    exact ⟨⟨c :: before, by simp [h1]⟩, h2⟩

theorem condHere_unique {s k b r k' b' r' : PyStr} (h : CondHere s k b r) (h' : CondHere s k' b' r') :
    k = k' ∧ b = b' ∧ r = r' := by
  obtain ⟨h1, h2, h3, h4, h5, h6⟩ := h
  obtain ⟨h1', h2', h3', h4', h5', h6'⟩ := h'
  have he : k ++ (']' :: (b ++ r)) = k' ++ (']' :: (b' ++ r')) := by
    have := h1.symm.trans h1'
    simpa using this
  obtain ⟨rfl, he2⟩ := split_unique (p := isDigit) he (List.all_eq_true.2 h3) (List.all_eq_true.2 h3')
    (by rintro c x hx; cases hx; decide) (by rintro c x hx; cases hx; decide)
  have he3 := (List.cons.inj he2).2
  obtain ⟨rfl, rfl⟩ := split_unique (p := nb) he3 (List.all_eq_true.2 fun c hc => (nb_iff c).2 (h5 c hc))
    (List.all_eq_true.2 fun c hc => (nb_iff c).2 (h5' c hc)) ((textEnd_iff _).2 h6) ((textEnd_iff _).2 h6')
  exact ⟨rfl, rfl, rfl⟩

theorem conditionAt_here {s k0 b0 r0 k b r : PyStr} (h : CondHere s k0 b0 r0) :
    ConditionAt s k b r ↔ (k = k0 ∧ b = b0 ∧ r = r0) ∨ ConditionAt r0 k b r := by
  constructor
  · rintro ⟨⟨before, h1⟩, h2⟩
    have h0 := h.1
    have he : ('[' :: k0 ++ ']' :: b0) ++ r0 = before ++ ('[' :: (k ++ ']' :: b ++ r)) := by
      rw [← h0, h1]; simp
    rcases List.append_eq_append_iff.1 he with ⟨m, hm1, hm2⟩ | ⟨m, hm1, hm2⟩
    · exact .inr ⟨⟨m, by rw [hm2]; simp⟩, h2⟩
    · cases m with
      | nil => exact .inr ⟨⟨[], by simpa using hm2.symm⟩, h2⟩
      | cons x m =>
        have hx : x = '[' := by
          rw [List.cons_append] at hm2
          exact (List.cons.inj hm2).1.symm
        subst hx
        cases before with
        | nil =>
          left
          obtain ⟨h3, h4, h5⟩ := condHere_unique h ⟨by simpa using h1, h2⟩
          exact ⟨h3.symm, h4.symm, h5.symm⟩
        | cons y before =>
          exfalso
          have hmem : '[' ∈ k0 ++ ']' :: b0 := by
            simp only [List.cons_append, List.cons.injEq] at hm1
            rw [hm1.2]; simp
          rcases List.mem_append.1 hmem with hm | hm
          · exact absurd (h.2.2.1 _ hm) (by decide)
          · rcases List.mem_cons.1 hm with hm | hm
            · exact absurd hm (by decide)
            · exact (h.2.2.2.2.1 _ hm).1 rfl
  · rintro (⟨rfl, rfl, rfl⟩ | ⟨⟨before, h1⟩, h2⟩)
    · exact ⟨⟨[], by simpa using h.1⟩, h.2⟩
    · exact ⟨⟨'[' :: k0 ++ ']' :: b0 ++ before, by rw [h.1, h1]; simp⟩, h2⟩

theorem pairs_spec (n : Nat) : ∀ (s : PyStr) (fuel pos : Nat), s.length ≤ n → s.length < fuel →
    (∀ k, k ∈ (pairsFrom fuel pos s).map Prod.fst ↔ ∃ b r, ConditionAt s k b r) ∧
    ∀ k v, (∃ x y, pairsFrom fuel pos s = x ++ (k, v) :: y ∧ k ∉ y.map Prod.fst) ↔
      ∃ b, LastCondition s k b ∧ v = strip b := by
  induction n with
  | zero =>
    intro s fuel pos hs _
    obtain rfl : s = [] := List.length_eq_zero_iff.1 (by omega)
    rw [pairsFrom_nil]
    have hno : ∀ k b r, ¬ ConditionAt [] k b r := by
      rintro k b r ⟨⟨before, h⟩, _⟩; simp at h
    constructor
    · intro k; simp [hno]
    · intro k v; simp [LastCondition, hno]
  | succ n ih =>
    intro s fuel pos hs hfuel
    cases fuel with
    | zero => omega
    | succ fuel =>
      by_cases hh : ∃ k b r, CondHere s k b r
      · obtain ⟨k0, b0, r0, hh⟩ := hh
        obtain ⟨pos', hp⟩ := pairsFrom_here (fuel := fuel) (pos := pos) hh
        have hlen : r0.length < s.length := by rw [hh.1]; simp; omega
        obtain ⟨ih1, ih2⟩ := ih r0 fuel pos' (by omega) (by omega)
        rw [hp]
        constructor
        · intro k
          rw [List.map_cons, List.mem_cons, ih1]
          simp only [conditionAt_here hh]
          constructor
          · rintro (rfl | ⟨b, r, h⟩)
            · exact ⟨b0, r0, .inl ⟨rfl, rfl, rfl⟩⟩
            · exact ⟨b, r, .inr h⟩
          · rintro ⟨b, r, ⟨rfl, rfl, rfl⟩ | h⟩
            · exact .inl rfl
            · exact .inr ⟨b, r, h⟩
        · intro k v
          constructor
          · rintro ⟨x, y, h1, h2⟩
            cases x with
            | nil =>
              rw [List.nil_append, List.cons.injEq, Prod.mk.injEq] at h1
              obtain ⟨⟨rfl, rfl⟩, rfl⟩ := h1
              refine ⟨b0, ⟨r0, (conditionAt_here hh).2 (.inl ⟨rfl, rfl, rfl⟩), ?_⟩, rfl⟩
              rw [ih1] at h2
              exact h2
            | cons p x =>
              rw [List.cons_append, List.cons.injEq] at h1
              obtain ⟨b, ⟨r, h3, h4⟩, h5⟩ := (ih2 k v).1 ⟨x, y, h1.2, h2⟩
              exact ⟨b, ⟨r, (conditionAt_here hh).2 (.inr h3), h4⟩, h5⟩
          · rintro ⟨b, ⟨r, h1, h2⟩, rfl⟩
            rcases (conditionAt_here hh).1 h1 with ⟨rfl, rfl, rfl⟩ | h1
            · exact ⟨[], _, rfl, by rw [ih1]; exact h2⟩
            · obtain ⟨x, y, h3, h4⟩ := (ih2 k (strip b)).2 ⟨b, ⟨r, h1, h2⟩, rfl⟩
              exact ⟨(k0, strip b0) :: x, y, by rw [h3]; rfl, h4⟩
      · cases s with
        | nil => exact ih [] (fuel + 1) pos (by simp) (by simp)
        | cons c s =>
          simp only [List.length_cons] at hs hfuel
          obtain ⟨ih1, ih2⟩ := ih s fuel (pos + 1) (by omega) (by omega)
          rw [pairsFrom_skip hh]
          constructor
          · intro k; rw [ih1]; simp only [conditionAt_skip hh]
          · intro k v; rw [ih2]; simp only [LastCondition, conditionAt_skip hh]

theorem extract_spec (s k v : PyStr) : dictGet k (extractBedingungen (some s)) = some v ↔
    ∃ b, LastCondition s k b ∧ v = strip b := by
  have key : dictGet k (dictUpdate [] (bedingungPairs s)) = some v ↔ ∃ b, LastCondition s k b ∧ v = strip b := by
    rw [dictGet_eq_some (nodup_dictUpdate (by simp)), mem_dictUpdate]
    exact (pairs_spec s.length s (s.length + 1) 0 (Nat.le_refl _) (Nat.lt_succ_self _)).2 k v
  cases s with
  | nil =>
    rw [← key]
    have : bedingungPairs [] = [] := pairsFrom_nil (fuel := 1) (pos := 0)
    rw [this]; rfl
  | cons c s => exact key

/-! ## lines -/

theorem replaceSection_spec (g : PyStr) : ∃ name, replaceHardcodedSectionNames (orNone (strip g)) = .ok name ∧
    ((strip g = [] ∧ name = none) ∨ (strip g ≠ [] ∧ ∃ t, CurrentName (strip g) t ∧ name = some t)) := by
  by_cases h : strip g = []
  · exact ⟨none, by simp [h, orNone, replaceHardcodedSectionNames], .inl ⟨h, rfl⟩⟩
  · have ho : orNone (strip g) = some (strip g) := by simp [orNone, h]
    rw [ho]
    have hs := strip_strip g
    generalize strip g = s at h hs ⊢
    simp only [replaceHardcodedSectionNames, hs, List.isEmpty_iff, h, if_false, CurrentName, ne_eq, not_false_eq_true, true_and]
    unfold sectionReplacements
    by_cases h1 : py!"OBIS-Kennzahl der Zähleinrichtung / Mengenumwerter / Smartmeter-Gateway" = s
    · subst h1
      exact ⟨_, rfl, .inr ⟨_, .inl ⟨rfl, rfl⟩, rfl⟩⟩
    · by_cases h2 : py!"OBIS-Daten der Zähleinrichtung / Mengenumwerter / Smartmeter-Gateway" = s
      · subst h2
        exact ⟨_, rfl, .inr ⟨_, .inr (.inl ⟨rfl, rfl⟩), rfl⟩⟩
      · by_cases h3 : py!"OBIS Daten für Lieferant relevant" = s
        · subst h3
          exact ⟨_, rfl, .inr ⟨_, .inr (.inr (.inl ⟨rfl, rfl⟩)), rfl⟩⟩
        · have h1' := Ne.symm h1
          have h2' := Ne.symm h2
          have h3' := Ne.symm h3
          refine ⟨some s, by simp only [dictGet, h1, h2, h3, if_false]; rfl, .inr ⟨s, .inr (.inr (.inr ⟨h1', h2', h3', rfl⟩)), rfl⟩⟩

/-- what `current_section_name` says about the rows above -/
def SectionState (above : List RawRow) (cur : Option PyStr) : Prop :=
  ((¬ ∃ r ∈ above, ∃ g, IsHeadingRow r g) ∧ cur = none) ∨
  ∃ before row after g, above = before ++ row :: after ∧ IsHeadingRow row g ∧ (¬ ∃ r ∈ after, ∃ g, IsHeadingRow r g) ∧
    cur = orNone (strip g)

theorem sectionState_replace {above : List RawRow} {cur : Option PyStr} (h : SectionState above cur) :
    ∃ name, replaceHardcodedSectionNames cur = .ok name ∧ SectionBelow above name := by
  rcases h with ⟨h, rfl⟩ | ⟨before, row, after, g, h1, h2, h3, rfl⟩
  · exact ⟨none, rfl, .inl ⟨h, rfl⟩⟩
  · obtain ⟨name, hn, hn'⟩ := replaceSection_spec g
    exact ⟨name, hn, .inr ⟨before, row, after, g, h1, h2, h3, by simpa only [trim_eq] using hn'⟩⟩

theorem sectionState_heading {above : List RawRow} {row : RawRow} {g : PyStr} (h : IsHeadingRow row g) :
    SectionState (above ++ [row]) (orNone (strip g)) :=
  .inr ⟨above, row, [], g, rfl, h, by simp, rfl⟩

theorem sectionState_line {above : List RawRow} {row : RawRow} {cur : Option PyStr} (h : ¬ ∃ g, IsHeadingRow row g)
    (hs : SectionState above cur) : SectionState (above ++ [row]) cur := by
  rcases hs with ⟨h1, h2⟩ | ⟨before, r, after, g, rfl, h2, h3, h4⟩
  · refine .inl ⟨?_, h2⟩
    rintro ⟨r, hr, hg⟩
    rcases List.mem_append.1 hr with hr | hr
    · exact h1 ⟨r, hr, hg⟩
    · rw [List.mem_singleton.1 hr] at hg; exact h hg
  · refine .inr ⟨before, r, after ++ [row], g, by simp, h2, ?_, h4⟩
    rintro ⟨r, hr, hg⟩
    rcases List.mem_append.1 hr with hr | hr
    · exact h3 ⟨r, hr, hg⟩
    · rw [List.mem_singleton.1 hr] at hg; exact h hg

theorem nonEmpty_eq (x : Option PyStr) : orNone? x = nonEmpty x := by
  match x with
  | none => rfl
  | some [] => rfl
  | some (_ :: _) => rfl

/-- the conditions of a row -/
def rowConditions (row : RawRow) : List (PyStr × PyStr) := extractBedingungen (row.cell py!"Bedingung")

theorem lineNew_ok {l l' : AhbLine} (h : AhbLine.new l = .ok l') : l = l' ∧ l.valid = true := by
  unfold AhbLine.new at h
  split at h
  · rename_i hv
    exact ⟨Except.ok.inj h, hv⟩
  · cases h

theorem lineOf_ok {p : PyStr} {guid : Fin (2 ^ 128)} {st st' : CsvState} {row : RawRow} {group vpe desc : Option PyStr}
    {bed : List (PyStr × PyStr)} {o : Option AhbLine} {above : List RawRow} (hst : SectionState above st.currentSectionName)
    (h : rawRowToAhbLine.lineOf p guid st row group vpe desc bed = .ok (st', o)) :
    ∃ l, o = some l ∧ st' = { st with bedingungen := bed } ∧ l.segmentGroupKey = group ∧
      l.segmentCode = nonEmpty (row.cell py!"Segment") ∧ l.dataElement = nonEmpty (row.cell py!"Datenelement") ∧
      l.valuePoolEntry = vpe ∧ l.name = desc ∧ l.ahbExpression = nonEmpty (row.cell p) ∧ SectionBelow above l.sectionName ∧
      l.guid.isSome ∧ l.segmentId = none ∧ l.conditions = none ∧
      (∀ key ∈ [py!"Segment", py!"Datenelement", p], row.HasColumn key) ∧
      (∀ t, row.cell p = some t → t = [] ∨ ∃ c ∈ t, c ∉ whiteSpace) := by
  unfold rawRowToAhbLine.lineOf at h
  obtain ⟨name, hn, hsec⟩ := sectionState_replace hst
  rw [hn] at h
  cases h1 : row.subscript py!"Segment" with
  | error e => rw [h1] at h; cases h
  | ok seg =>
    cases h2 : row.subscript py!"Datenelement" with
    | error e => rw [h1, h2] at h; cases h
    | ok de =>
      cases h3 : row.subscript p with
      | error e => rw [h1, h2, h3] at h; cases h
      | ok ex =>
        rw [h1, h2, h3] at h
        simp only [Bind.bind, Except.bind, pure, Except.pure] at h
        split at h
        · cases h
        · rename_i l hl
          obtain ⟨rfl, hv⟩ := lineNew_ok hl
          cases h
          rw [subscript_ok] at h1 h2 h3
          refine ⟨_, rfl, rfl, rfl, ?_, ?_, rfl, rfl, ?_, hsec, rfl, rfl, rfl, ?_, ?_⟩
          · rw [cell_of_get h1, ← nonEmpty_eq]
          · rw [cell_of_get h2, ← nonEmpty_eq]
          · rw [cell_of_get h3, ← nonEmpty_eq]
          · intro key hkey
            simp only [List.mem_cons, List.not_mem_nil, or_false] at hkey
            rcases hkey with rfl | rfl | rfl
            · exact ⟨_, h1⟩
            · exact ⟨_, h2⟩
            · exact ⟨_, h3⟩
          · intro t ht
            rw [cell_of_get h3] at ht
            subst ht
            simp only [AhbLine.valid, Bool.and_eq_true] at hv
            have := hv.1.1
            cases t with
            | nil => exact .inl rfl
            | cons c t =>
              right
              have hb : isNotBlank (some (c :: t)) = true := by simpa [orNone?, orNone] using this
              exact (notBlank_iff _).1 hb

theorem lineOf_exists {p : PyStr} {guid : Fin (2 ^ 128)} {st : CsvState} {row : RawRow} {group vpe desc : Option PyStr}
    {bed : List (PyStr × PyStr)} {above : List RawRow} (hst : SectionState above st.currentSectionName)
    (h1 : ∀ key ∈ [py!"Segment", py!"Datenelement", p], row.HasColumn key)
    (h2 : ∀ t, row.cell p = some t → t = [] ∨ ∃ c ∈ t, c ∉ whiteSpace) :
    ∃ r, rawRowToAhbLine.lineOf p guid st row group vpe desc bed = .ok r := by
  obtain ⟨seg, hseg⟩ := h1 py!"Segment" (by simp)
  obtain ⟨de, hde⟩ := h1 py!"Datenelement" (by simp)
  obtain ⟨ex, hex⟩ := h1 p (by simp)
  obtain ⟨name, hn, hsec⟩ := sectionState_replace hst
  unfold rawRowToAhbLine.lineOf
  rw [hn, subscript_ok.2 hseg, subscript_ok.2 hde, subscript_ok.2 hex]
  simp only [Bind.bind, Except.bind]
  have hv : ∀ l : AhbLine, l.ahbExpression = orNone? ex → l.index = none → l.guid = some guid.val → AhbLine.new l = .ok l := by
    intro l hl1 hl2 hl3
    unfold AhbLine.new AhbLine.valid
    rw [if_pos]
    rw [hl1, hl2, hl3]
    simp only [Bool.and_true, Bool.and_eq_true, decide_eq_true_eq]
    refine ⟨?_, guid.isLt⟩
    match ex, cell_of_get hex with
    | none, _ => rfl
    | some [], _ => rfl
    | some (c :: t), hc =>
      rcases h2 _ hc with h | h
      · cases h
      · have := (notBlank_iff (c :: t)).2 h
        simp [orNone?, orNone, this]
  rw [hv _ rfl rfl rfl]
  exact ⟨_, rfl⟩

theorem rawRow_ok {p : PyStr} {guid : Fin (2 ^ 128)} {st st' : CsvState} {row : RawRow} {o : Option AhbLine}
    {above : List RawRow} (hst : SectionState above st.currentSectionName)
    (h : rawRowToAhbLine p guid st row = .ok (st', o)) :
    st'.bedingungen = dictUpdate st.bedingungen (rowConditions row) ∧
    SectionState (above ++ [row]) st'.currentSectionName ∧ ReadableRow p row ∧
    (((∃ g, IsHeadingRow row g) ∧ o = none) ∨
      ((¬ ∃ g, IsHeadingRow row g) ∧ ∃ l, o = some l ∧ LineOfRow p above row l)) := by
  unfold rawRowToAhbLine at h
  cases h1 : row.subscript py!"Codes und Qualifier" with
  | error e => rw [h1] at h; cases h
  | ok codes =>
  cases h2 : row.subscript py!"Beschreibung" with
  | error e => rw [h1, h2] at h; cases h
  | ok besch =>
  cases h3 : row.subscript py!"Bedingung" with
  | error e => rw [h1, h2, h3] at h; cases h
  | ok bed =>
  cases h4 : row.subscript py!"Segment Gruppe" with
  | error e => rw [h1, h2, h3, h4] at h; cases h
  | ok gruppe =>
  rw [h1, h2, h3, h4] at h
  simp only [Bind.bind, Except.bind] at h
  rw [subscript_ok] at h1 h2 h3 h4
  have hsep := separate_spec codes besch
  have hcols : ∀ key ∈ [py!"Codes und Qualifier", py!"Beschreibung", py!"Bedingung"], row.HasColumn key := by
    intro key hkey
    simp only [List.mem_cons, List.not_mem_nil, or_false] at hkey
    rcases hkey with rfl | rfl | rfl
    · exact ⟨_, h1⟩
    · exact ⟨_, h2⟩
    · exact ⟨_, h3⟩
  have hbed : rowConditions row = extractBedingungen bed := by rw [rowConditions, cell_of_get h3]
  have c1 := cell_of_get h1
  have c2 := cell_of_get h2
  have c4 := cell_of_get h4
  rw [hbed]
  split at h
  · rename_i hg
    obtain ⟨g, rfl, hlg⟩ := (isSegmentGroup_iff _).1 hg
    obtain ⟨l, rfl, rfl, e1, e2, e3, e4, e5, e6, e7, e8, e9, e10, e11, e12⟩ := lineOf_ok hst h
    have hno : ¬ ∃ g, IsHeadingRow row g := by
      rintro ⟨g', hg', _, hn⟩
      rw [c4] at hg'
      cases hg'
      exact hn hlg
    refine ⟨rfl, sectionState_line hno hst, ⟨hcols, ⟨g, c4⟩, .inr ⟨e11, e12⟩⟩, .inr ⟨hno, l, rfl, ?_⟩⟩
    refine ⟨.inl ⟨g, c4, hlg, e1⟩, e2, e3, ?_, e6, e7, e8, e9, e10⟩
    rw [c1, c2, e4, e5]; exact hsep
  · rename_i hg
    cases gruppe with
    | none => cases h
    | some g =>
      have hng : ¬ LooksLikeGroup g := fun h' => hg ((isSegmentGroup_iff _).2 ⟨g, rfl, h'⟩)
      simp only at h
      split at h
      · rename_i hlen
        cases h
        have hh : IsHeadingRow row g := ⟨c4, hlen, hng⟩
        exact ⟨rfl, sectionState_heading hh, ⟨hcols, ⟨g, c4⟩, .inl ⟨g, hh⟩⟩, .inl ⟨⟨g, hh⟩, rfl⟩⟩
      · rename_i hlen
        obtain ⟨l, rfl, rfl, e1, e2, e3, e4, e5, e6, e7, e8, e9, e10, e11, e12⟩ := lineOf_ok hst h
        have hno : ¬ ∃ g, IsHeadingRow row g := by
          rintro ⟨g', hg', hl, _⟩
          rw [c4] at hg'
          cases hg'
          exact hlen hl
        refine ⟨rfl, sectionState_line hno hst, ⟨hcols, ⟨g, c4⟩, .inr ⟨e11, e12⟩⟩, .inr ⟨hno, l, rfl, ?_⟩⟩
        refine ⟨.inr ⟨?_, e1⟩, e2, e3, ?_, e6, e7, e8, e9, e10⟩
        · rintro ⟨g', hg', hl⟩
          rw [c4] at hg'
          cases hg'
          exact hng hl
        · rw [c1, c2, e4, e5]; exact hsep

theorem rawRow_exists {p : PyStr} {guid : Fin (2 ^ 128)} {st : CsvState} {row : RawRow} {above : List RawRow}
    (hst : SectionState above st.currentSectionName) (h : ReadableRow p row) :
    ∃ r, rawRowToAhbLine p guid st row = .ok r := by
  obtain ⟨h1, ⟨g, hg⟩, h2⟩ := h
  obtain ⟨codes, hc⟩ := h1 py!"Codes und Qualifier" (by simp)
  obtain ⟨besch, hb⟩ := h1 py!"Beschreibung" (by simp)
  obtain ⟨bed, hd⟩ := h1 py!"Bedingung" (by simp)
  unfold rawRowToAhbLine
  rw [subscript_ok.2 hc, subscript_ok.2 hb, subscript_ok.2 hd, subscript_ok.2 (cell_eq.1 hg)]
  simp only [Bind.bind, Except.bind]
  rcases h2 with ⟨g', hg', hlen, hn⟩ | ⟨h2, h3⟩
  · rw [hg] at hg'
    cases hg'
    rw [if_neg (fun h => by
      obtain ⟨g', hg', h⟩ := (isSegmentGroup_iff _).1 h
      cases hg'
      exact hn h), if_pos hlen]
    exact ⟨_, rfl⟩
  · split
    · exact lineOf_exists hst h2 h3
    · split
      · exact ⟨_, rfl⟩
      · exact lineOf_exists hst h2 h3

/-- the lines of the rows `rows` below `above`, numbered from `i` -/
def LinesOf (p : PyStr) : List RawRow → Nat → List RawRow → List AhbLine → Prop
  | _, _, [], ls => ls = []
  | above, i, row :: rows, ls =>
    ((∃ g, IsHeadingRow row g) ∧ LinesOf p (above ++ [row]) (i + 1) rows ls) ∨
    ((¬ ∃ g, IsHeadingRow row g) ∧ ∃ l ls', ls = l :: ls' ∧ l.index = some (i : Int) ∧ LineOfRow p above row l ∧
      LinesOf p (above ++ [row]) (i + 1) rows ls')

theorem lineOfRow_index {p : PyStr} {above : List RawRow} {row : RawRow} {l : AhbLine} {i : Option Int}
    (h : LineOfRow p above row l) : LineOfRow p above row { l with index := i } :=
  ⟨h.group, h.segment, h.dataElement, h.entry, h.expression, h.sectionName, h.guid, h.rest⟩

theorem readLoop_ok {p : PyStr} {guid : Nat → Fin (2 ^ 128)} (rows : List RawRow) (i : Nat) (st st' : CsvState)
    (above : List RawRow) (hst : SectionState above st.currentSectionName) (ls : List AhbLine)
    (h : readLoop p guid i st rows = .ok (st', ls)) :
    (∀ r ∈ rows, ReadableRow p r) ∧ st'.bedingungen = dictUpdate st.bedingungen (rows.flatMap rowConditions) ∧
      LinesOf p above i rows ls := by
  induction rows generalizing i st st' above ls with
  | nil =>
    simp only [readLoop, Except.ok.injEq, Prod.mk.injEq] at h
    obtain ⟨rfl, rfl⟩ := h
    exact ⟨by simp, rfl, rfl⟩
  | cons row rows ih =>
    unfold readLoop at h
    cases h1 : rawRowToAhbLine p (guid i) st row with
    | error e => rw [h1] at h; cases h
    | ok x =>
      obtain ⟨st1, o⟩ := x
      rw [h1] at h
      simp only [Bind.bind, Except.bind] at h
      cases h2 : readLoop p guid (i + 1) st1 rows with
      | error e => rw [h2] at h; cases h
      | ok y =>
        obtain ⟨st2, ls2⟩ := y
        rw [h2] at h
        simp only at h
        obtain ⟨e1, e2, e3, e4⟩ := rawRow_ok hst h1
        obtain ⟨f1, f2, f3⟩ := ih (i + 1) st1 st2 (above ++ [row]) e2 ls2 h2
        have hall : ∀ r ∈ row :: rows, ReadableRow p r := by
          intro r hr
          rcases List.mem_cons.1 hr with rfl | hr
          · exact e3
          · exact f1 r hr
        have hbed : st2.bedingungen = dictUpdate st.bedingungen ((row :: rows).flatMap rowConditions) := by
          rw [f2, e1, List.flatMap_cons, dictUpdate_append]
        rcases e4 with ⟨hh, rfl⟩ | ⟨hh, l, rfl, hl⟩
        · cases h
          exact ⟨hall, hbed, .inl ⟨hh, f3⟩⟩
        · cases h
          exact ⟨hall, hbed, .inr ⟨hh, _, _, rfl, rfl, lineOfRow_index hl, f3⟩⟩

theorem readLoop_exists {p : PyStr} {guid : Nat → Fin (2 ^ 128)} (rows : List RawRow) (i : Nat) (st : CsvState)
    (above : List RawRow) (hst : SectionState above st.currentSectionName) (h : ∀ r ∈ rows, ReadableRow p r) :
    ∃ r, readLoop p guid i st rows = .ok r := by
  induction rows generalizing i st above with
  | nil => exact ⟨_, rfl⟩
  | cons row rows ih =>
    obtain ⟨⟨st1, o⟩, h1⟩ := rawRow_exists (guid := guid i) hst (h row (by simp))
    obtain ⟨_, e2, _, _⟩ := rawRow_ok hst h1
    obtain ⟨⟨st2, ls⟩, h2⟩ := ih (i + 1) st1 _ e2 (fun r hr => h r (by simp [hr]))
    unfold readLoop
    rw [h1]
    simp only [Bind.bind, Except.bind, h2]
    cases o <;> exact ⟨_, rfl⟩

/-- what `LinesOf` says about the single lines -/
theorem linesOf_lines {p : PyStr} (rows above : List RawRow) (i : Nat) (ls : List AhbLine) (h : LinesOf p above i rows ls) :
    (∀ l ∈ ls, ∃ j row, rows[j]? = some row ∧ l.index = some ((i + j : Nat) : Int) ∧ (¬ ∃ g, IsHeadingRow row g) ∧
      LineOfRow p (above ++ rows.take j) row l) ∧
    (∀ j row, rows[j]? = some row → (¬ ∃ g, IsHeadingRow row g) → ∃ l ∈ ls, l.index = some ((i + j : Nat) : Int)) ∧
    ls.Pairwise (fun a b => ∃ x y : Int, a.index = some x ∧ b.index = some y ∧ x < y) := by
  induction rows generalizing above i ls with
  | nil =>
    simp only [LinesOf] at h
    subst h
    exact ⟨by simp, by simp, .nil⟩
  | cons row rows ih =>
    rw [LinesOf] at h
    rcases h with ⟨hh, h⟩ | ⟨hh, l, ls, rfl, hi, hl, h⟩
    · obtain ⟨h1, h2, h3⟩ := ih _ _ _ h
      refine ⟨?_, ?_, h3⟩
      · intro l hl
        obtain ⟨j, r, e1, e2, e3, e4⟩ := h1 l hl
        exact ⟨j + 1, r, by simpa using e1, by rw [e2]; congr 2; omega, e3, by simpa using e4⟩
      · intro j r hj hr
        cases j with
        | zero =>
          simp only [List.getElem?_cons_zero, Option.some.injEq] at hj
          subst hj
          exact absurd hh hr
        | succ j =>
          obtain ⟨l, hl, e⟩ := h2 j r (by simpa using hj) hr
          exact ⟨l, hl, by rw [e]; congr 2; omega⟩
    · obtain ⟨h1, h2, h3⟩ := ih _ _ _ h
      refine ⟨?_, ?_, ?_⟩
      · intro x hx
        rcases List.mem_cons.1 hx with rfl | hx
        · exact ⟨0, row, rfl, by rw [hi]; rfl, hh, by simpa using hl⟩
        · obtain ⟨j, r, e1, e2, e3, e4⟩ := h1 x hx
          exact ⟨j + 1, r, by simpa using e1, by rw [e2]; congr 2; omega, e3, by simpa using e4⟩
      · intro j r hj hr
        cases j with
        | zero => exact ⟨l, by simp, by rw [hi]; rfl⟩
        | succ j =>
          obtain ⟨x, hx, e⟩ := h2 j r (by simpa using hj) hr
          exact ⟨x, by simp [hx], by rw [e]; congr 2; omega⟩
      · refine .cons ?_ h3
        intro x hx
        obtain ⟨j, r, e1, e2, _⟩ := h1 x hx
        exact ⟨_, _, hi, e2, by omega⟩

end Verif
