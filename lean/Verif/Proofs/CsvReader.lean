import Verif.Proofs.Csv
import Verif.Spec.Flat
import Mathlib.Data.List.Chain
/-!
# Lemmas about the CSV reader as a whole
-/

namespace Verif
open Re

instance decSectionOnlyRow (r : RawRow) : Decidable (∃ g, SectionOnly r g) :=
  decidable_of_iff ((sectionOnly? r).isSome = true) (by
    rw [Option.isSome_iff_exists]
    simp only [sectionOnly?_iff])

theorem forall₂_mem {α β} {R : α → β → Prop} {as : List α} {bs : List β} (h : List.Forall₂ R as bs) {a : α} (ha : a ∈ as) :
    ∃ b ∈ bs, R a b := by
  induction h with
  | nil => cases ha
  | cons h1 _ ih =>
    rcases List.mem_cons.1 ha with rfl | ha
    · exact ⟨_, by simp, h1⟩
    · obtain ⟨b, hb, h⟩ := ih ha
      exact ⟨b, by simp [hb], h⟩

/-! ## joined headings -/

theorem chain_iff_no_double (s : PyStr) : List.IsChain (fun a b => ¬ (a = ' ' ∧ b = ' ')) s ↔ ¬ py!"  " <:+: s := by
  rw [List.isChain_iff_forall_rel_of_append_cons_cons]
  constructor
  · rintro h ⟨a, b, rfl⟩
    exact h (l₁ := a) (a := ' ') (b := ' ') (l₂ := b) (by simp) ⟨rfl, rfl⟩
  · rintro h a b x y rfl ⟨rfl, rfl⟩
    exact h ⟨x, y, by simp⟩

theorem replaceStr_no_double (s new : PyStr) (h : ¬ py!"  " <:+: s) : replaceStr py!"  " new s = s := by
  unfold replaceStr
  induction s with
  | nil => rfl
  | cons c s ih =>
    rw [replaceStrAux]
    have h1 : ¬ (py!"  ").isPrefixOf (c :: s) = true := by
      rw [List.isPrefixOf_iff_prefix]
      exact fun h' => h h'.isInfix
    rw [if_neg h1, ih (fun h' => h (h'.trans (List.suffix_cons c s).isInfix))]

theorem join_head {g : PyStr} {gs : List PyStr} : ∃ r, pyJoin py!" " (g :: gs) = g ++ r := by
  cases gs with
  | nil => exact ⟨[], by simp [pyJoin]⟩
  | cons h gs => exact ⟨_, by rw [pyJoin]; rw [List.append_assoc]; simp⟩

theorem join_cons (g h : PyStr) (gs : List PyStr) : pyJoin py!" " (g :: h :: gs) = g ++ ' ' :: pyJoin py!" " (h :: gs) := by
  rw [pyJoin]; simp; simp

theorem stripped_last {g r : PyStr} {c : Char} (h : strip g = g) (he : g = r ++ [c]) : isSpace c = false :=
  strip_last (s := g) (by rw [h, he])

theorem stripped_head {g r : PyStr} {c : Char} (h : strip g = g) (he : g = c :: r) : isSpace c = false :=
  strip_head (s := g) (by rw [h, he])

theorem joinedHeading_eq (gs : List PyStr) (h : ∀ g ∈ gs, g ≠ [] ∧ strip g = g ∧ ¬ py!"  " <:+: g) :
    joinedHeading gs = pyJoin py!" " gs := by
  -- all facts about the joined text at once
  have key : ∀ gs : List PyStr, gs ≠ [] → (∀ g ∈ gs, g ≠ [] ∧ strip g = g ∧ ¬ py!"  " <:+: g) →
      (gs.flatMap fun g => ' ' :: g) = ' ' :: pyJoin py!" " gs ∧
      (∃ c r, pyJoin py!" " gs = c :: r ∧ isSpace c = false) ∧ (∃ r c, pyJoin py!" " gs = r ++ [c] ∧ isSpace c = false) ∧
      List.IsChain (fun a b => ¬ (a = ' ' ∧ b = ' ')) (pyJoin py!" " gs) := by
    intro gs
    induction gs with
    | nil => intro h; exact absurd rfl h
    | cons g gs ih =>
      intro _ h
      obtain ⟨h1, h2, h3⟩ := h g (by simp)
      obtain ⟨c, r, hc⟩ := List.exists_cons_of_ne_nil h1
      obtain ⟨r', c', hc'⟩ : ∃ r' c', g = r' ++ [c'] := ⟨_, _, (List.dropLast_append_getLast h1).symm⟩
      have hsc := stripped_head h2 hc
      have hsc' := stripped_last h2 hc'
      have hch := (chain_iff_no_double g).2 h3
      cases gs with
      | nil => exact ⟨by simp [pyJoin], ⟨c, r, by simpa [pyJoin] using hc, hsc⟩, ⟨r', c', by simpa [pyJoin] using hc', hsc'⟩, by simpa [pyJoin] using hch⟩
      | cons g2 gs =>
        obtain ⟨e1, ⟨c2, r2, e2, e2'⟩, ⟨r3, c3, e3, e3'⟩, e4⟩ := ih (by simp) (fun x hx => h x (by simp [hx]))
        rw [join_cons]
        refine ⟨?_, ⟨c, r ++ ' ' :: pyJoin py!" " (g2 :: gs), by rw [hc]; simp, hsc⟩,
          ⟨g ++ ' ' :: r3, c3, by rw [e3]; simp, e3'⟩, ?_⟩
        · rw [List.flatMap_cons, e1]; simp
        · rw [List.isChain_append]
          refine ⟨hch, ?_, ?_⟩
          · rw [e2, List.isChain_cons_cons, ← e2]
            refine ⟨?_, e4⟩
            rintro ⟨_, rfl⟩
            exact absurd e2' (by decide)
          · intro x hx y hy
            rw [hc'] at hx
            simp only [List.getLast?_append, List.getLast?_singleton, Option.some_or, Option.mem_def, Option.some.injEq] at hx
            subst hx
            rintro ⟨rfl, _⟩
            exact absurd hsc' (by decide)
  by_cases hne : gs = []
  · subst hne; rfl
  · obtain ⟨e1, ⟨c, r, e2, e2'⟩, ⟨r', c', e3, e3'⟩, e4⟩ := key gs hne h
    rw [joinedHeading_replace]
    rw [e1, strip_cons_space (by decide)]
    have : strip (pyJoin py!" " gs) = pyJoin py!" " gs := by
      unfold strip
      rw [lstrip_of_head, rstrip_of_last]
      · intro x y h; rw [e3] at h
        obtain ⟨_, h⟩ := List.append_inj' h rfl
        cases h; exact e3'
      · intro x y h; rw [e2] at h; cases h; exact e2'
    rw [this, replaceStr_no_double _ _ ((chain_iff_no_double _).1 e4)]

/-! ## the reader -/

theorem reader_ok {guid : Nat → Fin (2 ^ 128)} {records : List (List PyStr)} {pruefi : Option PyStr} {r : CsvReader}
    (h : CsvReader.new guid records pruefi = .ok r) :
    ∃ p merged st lines, choosePruefidentifikator pruefi (dictReaderFields records) = .ok p ∧
      mergeSectionOnlyLines (dictReaderRows records) = .ok merged ∧ readLoop p guid 0 {} merged = .ok (st, lines) ∧
      r = { rows := lines, pruefidentifikator := p, bedingungen := st.bedingungen } := by
  unfold CsvReader.new at h
  simp only [Bind.bind, Except.bind] at h
  split at h
  · cases h
  · rename_i p hp
    split at h
    · cases h
    · rename_i merged hm
      split at h
      · cases h
      · rename_i x hx
        obtain ⟨st, lines⟩ := x
        cases h
        exact ⟨p, merged, st, lines, hp, hm, hx, rfl⟩

theorem nonBlank_nonBlank (x : Option PyStr) : nonBlank (nonBlank x) = nonBlank x := by
  cases x with
  | none => rfl
  | some s =>
    by_cases h : strip s = []
    · simp [nonBlank, trim_eq, h]
    · simp [nonBlank, trim_eq, h, strip_strip]

theorem pairsFrom_wellFormed (conds : List (PyStr × PyStr))
    (h : ∀ c ∈ conds, c.1 ≠ [] ∧ (∀ x ∈ c.1, isDigit x = true) ∧ c.2 ≠ [] ∧ ∀ x ∈ c.2, x ≠ '[' ∧ x ≠ ']') (fuel pos : Nat)
    (hf : (conds.flatMap fun c => '[' :: c.1 ++ ']' :: c.2).length < fuel) :
    pairsFrom fuel pos (conds.flatMap fun c => '[' :: c.1 ++ ']' :: c.2) = conds.map fun c => (c.1, strip c.2) := by
  induction conds generalizing fuel pos with
  | nil => exact pairsFrom_nil
  | cons c conds ih =>
    obtain ⟨h1, h2, h3, h4⟩ := h c (by simp)
    cases fuel with
    | zero => omega
    | succ fuel =>
      rw [List.flatMap_cons] at hf ⊢
      have hh : CondHere (('[' :: c.1 ++ ']' :: c.2) ++ conds.flatMap fun c => '[' :: c.1 ++ ']' :: c.2) c.1 c.2
          (conds.flatMap fun c => '[' :: c.1 ++ ']' :: c.2) := by
        refine ⟨rfl, h1, h2, h3, h4, ?_⟩
        cases conds with
        | nil => exact .inl rfl
        | cons d conds => exact .inr ⟨_, .inl rfl⟩
      obtain ⟨pos', hp⟩ := pairsFrom_here (fuel := fuel) (pos := pos) hh
      rw [hp, ih (fun c hc => h c (by simp [hc])), List.map_cons]
      simp only [List.length_append, List.length_cons] at hf
      omega

theorem nodup_extract (x : Option PyStr) : ((extractBedingungen x).map Prod.fst).Nodup := by
  match x with
  | none => exact .nil
  | some [] => exact .nil
  | some (c :: s) => exact nodup_dictUpdate (by simp)

theorem mem_rowConditions (row : RawRow) (k v : PyStr) : (k, v) ∈ rowConditions row ↔
    ∃ text body, row.cell py!"Bedingung" = some text ∧ LastCondition text k body ∧ v = strip body := by
  unfold rowConditions
  rw [← dictGet_eq_some (nodup_extract _)]
  cases row.cell py!"Bedingung" with
  | none => simp [extractBedingungen, dictGet]
  | some s => rw [extract_spec]; simp

theorem mem_rowConditions_key (row : RawRow) (k : PyStr) : k ∈ (rowConditions row).map Prod.fst ↔
    ∃ text body, row.cell py!"Bedingung" = some text ∧ LastCondition text k body := by
  simp only [List.mem_map, Prod.exists, mem_rowConditions, exists_and_right, exists_eq_right]
  constructor
  · rintro ⟨v, t, b, h1, h2, _⟩; exact ⟨t, b, h1, h2⟩
  · rintro ⟨t, b, h1, h2⟩; exact ⟨_, t, b, h1, h2, rfl⟩

theorem flatMap_split {α β} {f : α → List β} {l : List α} {a b : List β} {x : β} (h : l.flatMap f = a ++ x :: b) :
    ∃ l1 y l2 u v, l = l1 ++ y :: l2 ∧ f y = u ++ x :: v ∧ b = v ++ l2.flatMap f := by
  induction l generalizing a with
  | nil => simp at h
  | cons y l ih =>
    rw [List.flatMap_cons] at h
    rcases List.append_eq_append_iff.1 h with ⟨c, h1, h2⟩ | ⟨c, h1, h2⟩
    · obtain ⟨l1, y', l2, u, v, rfl, e1, e2⟩ := ih h2
      exact ⟨y :: l1, y', l2, u, v, rfl, e1, e2⟩
    · cases c with
      | nil =>
        simp only [List.nil_append] at h2
        obtain ⟨l1, y', l2, u, v, rfl, e1, e2⟩ := ih (a := []) h2.symm
        exact ⟨y :: l1, y', l2, u, v, rfl, e1, e2⟩
      | cons z c =>
        simp only [List.cons_append, List.cons.injEq] at h2
        obtain ⟨rfl, rfl⟩ := h2
        exact ⟨[], y, l, a, c, rfl, h1, rfl⟩

theorem rows_conditions (merged : List RawRow) (key v : PyStr) :
    dictGet key (dictUpdate [] (merged.flatMap rowConditions)) = some v ↔
        ∃ before row after text body, merged = before ++ row :: after ∧ row.cell py!"Bedingung" = some text ∧
          LastCondition text key body ∧ v = strip body ∧
          ¬ ∃ row' ∈ after, ∃ text' body', row'.cell py!"Bedingung" = some text' ∧ LastCondition text' key body' := by
  rw [dictGet_eq_some (nodup_dictUpdate (by simp)), mem_dictUpdate]
  constructor
  · rintro ⟨a, b, h1, h2⟩
    obtain ⟨l1, row, l2, u, w, rfl, e1, rfl⟩ := flatMap_split h1
    obtain ⟨text, body, h3, h4, h5⟩ := (mem_rowConditions row key v).1 (by rw [e1]; simp)
    refine ⟨l1, row, l2, text, body, rfl, h3, h4, h5, ?_⟩
    rintro ⟨row', hr, h⟩
    have := (mem_rowConditions_key row' key).2 h
    apply h2
    rw [List.map_append, List.mem_append]
    right
    obtain ⟨y, hy, rfl⟩ := List.mem_map.1 this
    exact List.mem_map_of_mem (List.mem_flatMap.2 ⟨row', hr, hy⟩)
  · rintro ⟨before, row, after, text, body, rfl, h1, h2, h3, h4⟩
    have hm := (mem_rowConditions row key v).2 ⟨text, body, h1, h2, h3⟩
    obtain ⟨u, w, hu⟩ := List.append_of_mem hm
    refine ⟨before.flatMap rowConditions ++ u, w ++ after.flatMap rowConditions, ?_, ?_⟩
    · rw [List.flatMap_append, List.flatMap_cons, hu]; simp
    · rw [List.map_append, List.mem_append, not_or]
      constructor
      · have hn := nodup_extract (row.cell py!"Bedingung")
        have : extractBedingungen (row.cell py!"Bedingung") = u ++ (key, v) :: w := hu
        rw [this, List.map_append, List.nodup_append] at hn
        exact (List.nodup_cons.1 hn.2.1).1
      · intro h
        obtain ⟨y, hy, rfl⟩ := List.mem_map.1 h
        obtain ⟨row', hr, hy⟩ := List.mem_flatMap.1 hy
        exact h4 ⟨row', hr, (mem_rowConditions_key row' y.1).1 (List.mem_map_of_mem hy)⟩

theorem pruefiRe_iff (n : PyStr) : (pruefiRe.pyMatch n).isSome = true ↔ UpToNewline IsFiveDigits n := by
  have hpl : Plain (.rep 5 (.cls isDigit)) := by simp [Re.rep, Plain]
  rw [pruefiRe, pyMatch_anchored _ hpl]
  simp only [lang_rep_cls, UpToNewline, IsFiveDigits]
  exact or_congr Iff.rfl ⟨fun ⟨t, h1, h2⟩ => ⟨t, h2, h1⟩, fun ⟨t, h1, h2⟩ => ⟨t, h2, h1⟩⟩

theorem replacements_get (s : PyStr) : (∃ t, dictGet s sectionReplacements = some t ∧ CurrentName s t ∧ ¬ CurrentName s s) ∨
    (dictGet s sectionReplacements = none ∧ CurrentName s s) := by
  unfold sectionReplacements
  by_cases h1 : py!"OBIS-Kennzahl der Zähleinrichtung / Mengenumwerter / Smartmeter-Gateway" = s
  · subst h1
    exact .inl ⟨_, rfl, .inl ⟨rfl, rfl⟩, by unfold CurrentName; decide +kernel⟩
  · by_cases h2 : py!"OBIS-Daten der Zähleinrichtung / Mengenumwerter / Smartmeter-Gateway" = s
    · subst h2
      exact .inl ⟨_, rfl, .inr (.inl ⟨rfl, rfl⟩), by unfold CurrentName; decide +kernel⟩
    · by_cases h3 : py!"OBIS Daten für Lieferant relevant" = s
      · subst h3
        exact .inl ⟨_, rfl, .inr (.inr (.inl ⟨rfl, rfl⟩)), by unfold CurrentName; decide +kernel⟩
      · exact .inr ⟨by simp only [dictGet, h1, h2, h3, if_false],
          .inr (.inr (.inr ⟨Ne.symm h1, Ne.symm h2, Ne.symm h3, rfl⟩))⟩

theorem replace_exact (s : PyStr) :
    ((s ≠ strip s ∧ ¬ CurrentName (strip s) (strip s)) ∧ replaceHardcodedSectionNames (some s) = .error .keyError) ∨
    (¬ (s ≠ strip s ∧ ¬ CurrentName (strip s) (strip s)) ∧
      ∃ t, CurrentName s t ∧ replaceHardcodedSectionNames (some s) = .ok (some t)) := by
  by_cases hs : s = []
  · subst hs
    exact .inr ⟨fun h => h.1 rfl, [], .inr (.inr (.inr (by decide))), rfl⟩
  · have key : ∀ u t, dictGet u sectionReplacements = some t → strip u = u := by
      intro u t h
      have hm : (u, t) ∈ sectionReplacements := (dictGet_eq_some (by decide +kernel)).1 h
      have : ∀ x ∈ sectionReplacements, strip x.1 = x.1 := by decide +kernel
      exact this _ hm
    simp only [replaceHardcodedSectionNames, List.isEmpty_iff, hs, if_false]
    rcases replacements_get (strip s) with ⟨t, h1, h2, h3⟩ | ⟨h1, h2⟩
    · rw [h1]
      simp only [Option.isSome_some, if_true]
      rcases replacements_get s with ⟨t', h4, h5, _⟩ | ⟨h4, h5⟩
      · rw [h4]
        exact .inr ⟨fun h => h.1 (key _ _ h4).symm, t', h5, rfl⟩
      · rw [h4]
        refine .inl ⟨⟨?_, h3⟩, rfl⟩
        intro h
        rw [← h] at h3
        exact h3 h5
    · rw [h1]
      simp only [Option.isSome_none, Bool.false_eq_true, if_false]
      refine .inr ⟨fun h => h.2 h2, s, ?_, rfl⟩
      rcases replacements_get s with ⟨t', h4, h5, _⟩ | ⟨_, h5⟩
      · rw [key _ _ h4, h4] at h1; cases h1
      · exact h5

/-! ## complete files -/

theorem complete_merge {p : PyStr} (rows : List RawRow) (merged : PyStr) (h : ∀ row ∈ rows, CompleteRow p row) :
    ∃ out, mergeLoop merged rows = .ok out := by
  induction rows generalizing merged with
  | nil => exact ⟨[], rfl⟩
  | cons row rows ih =>
    have ih' := fun m => ih m (fun r hr => h r (by simp [hr]))
    rw [mergeLoop]
    cases hs : sectionOnly? row with
    | some g => exact ih' _
    | none =>
      obtain ⟨out, ho⟩ := ih' []
      simp only [ho]
      split
      · obtain ⟨_, ⟨t, i, h1, h2⟩, _⟩ := h row (by simp)
        obtain ⟨x, hx⟩ := artificialRow_exists (merged := merged) h1 h2
        rw [hx]
        exact ⟨_, rfl⟩
      · exact ⟨_, rfl⟩

def notSpace (c : Char) : Bool := decide (c ∉ whiteSpace)

theorem filter_lstrip (s : PyStr) : (lstrip s).filter notSpace = s.filter notSpace := by
  unfold lstrip
  induction s with
  | nil => rfl
  | cons c s ih =>
    rw [List.dropWhile_cons]
    split
    · rename_i h
      rw [ih, List.filter_cons_of_neg (by simp [notSpace, mem_whiteSpace, h])]
    · rfl

theorem filter_strip (s : PyStr) : (strip s).filter notSpace = s.filter notSpace := by
  unfold strip rstrip
  rw [List.filter_reverse]
  have h := filter_lstrip (lstrip s).reverse
  have h' : (List.dropWhile isSpace (lstrip s).reverse).filter notSpace = (lstrip s).reverse.filter notSpace := h
  rw [h', List.filter_reverse, filter_lstrip, List.reverse_reverse]

theorem filter_replace (s : PyStr) (n : Nat) (hn : n ≤ 1) (hs : n = 1 → ∃ r, s = ' ' :: r) :
    (replaceStrAux py!"  " py!" " n s).filter notSpace = s.filter notSpace := by
  induction s generalizing n with
  | nil => simp [replaceStrAux]
  | cons c s ih =>
    match n, hn with
    | 0, _ =>
      rw [replaceStrAux]
      split
      · rename_i h
        rw [List.isPrefixOf_iff_prefix] at h
        obtain ⟨r, h⟩ := h
        cases h
        rw [List.filter_append, ih _ (by decide) (fun _ => ⟨r, rfl⟩)]
        rw [List.filter_cons_of_neg (by decide)]
        rfl
      · rw [List.filter_cons, ih 0 (by decide) (fun h => by cases h), List.filter_cons]
    | 1, _ =>
      obtain ⟨r, hr⟩ := hs rfl
      cases hr
      rw [replaceStrAux, ih 0 (by decide) (fun h => by cases h), List.filter_cons_of_neg (by decide)]

theorem filter_joined (gs : List PyStr) : (joinedHeading gs).filter notSpace = gs.flatMap fun g => g.filter notSpace := by
  rw [joinedHeading_replace]
  unfold replaceStr
  rw [filter_replace _ 0 (by decide) (fun h => by cases h), filter_strip, List.filter_flatMap]
  congr 1

theorem joined_heading {gs : List PyStr} {g : PyStr} (hg : g ∈ gs) (h : ProperHeading g) :
    3 ≤ (joinedHeading gs).length ∧ ¬ LooksLikeGroup (joinedHeading gs) := by
  obtain ⟨h1, c, hc, h2, h3⟩ := h
  have hsub : (g.filter notSpace).Sublist (gs.flatMap fun g => g.filter notSpace) := by
    obtain ⟨a, b, rfl⟩ := List.append_of_mem hg
    rw [List.flatMap_append, List.flatMap_cons]
    exact (List.sublist_append_left _ _).trans (List.sublist_append_right _ _)
  rw [← filter_joined] at hsub
  have hc' : c ∈ joinedHeading gs :=
    List.mem_of_mem_filter (hsub.subset (List.mem_filter.2 ⟨hc, by simp [notSpace, h2]⟩))
  constructor
  · exact h1.trans (hsub.length_le.trans (List.length_filter_le _ _))
  · rintro (⟨_, h, _⟩ | ⟨t, ht, _, h, _⟩)
    · exact h3 (h c hc')
    · rw [ht] at hc'
      rcases List.mem_append.1 hc' with hc' | hc'
      · exact h3 (h c hc')
      · rw [List.mem_singleton.1 hc'] at h2
        exact absurd h2 (by decide)

theorem hasColumn_of_cell {row : RawRow} {key t : PyStr} (h : row.cell key = some t) : row.HasColumn key :=
  ⟨_, cell_eq.1 h⟩

theorem complete_readable {p : PyStr} {row : RawRow} (h : CompleteRow p row) : ReadableRow p row := by
  obtain ⟨h1, _, h3, _⟩ := h
  have hc : ∀ key ∈ [py!"Segment Gruppe", py!"Segment", py!"Datenelement", py!"Codes und Qualifier", py!"Beschreibung",
    py!"Bedingung", p], row.HasColumn key := fun key hk => hasColumn_of_cell (h1 key hk).choose_spec
  refine ⟨fun key hk => hc key ?_, h1 _ (by simp), .inr ⟨fun key hk => hc key ?_, h3⟩⟩
  · simp only [List.mem_cons, List.not_mem_nil, or_false] at hk ⊢; tauto
  · simp only [List.mem_cons, List.not_mem_nil, or_false] at hk ⊢; tauto

theorem merged_readable {p : PyStr} {rows out : List RawRow} (h : ∀ row ∈ rows, CompleteRow p row) (hm : Merged rows out) :
    ∀ row ∈ out, ReadableRow p row := by
  induction hm with
  | nil _ => simp
  | row _ _ ih =>
    intro x hx
    rcases List.mem_cons.1 hx with rfl | hx
    · exact complete_readable (h _ (by simp))
    · exact ih (fun r hr => h r (by simp [hr])) x hx
  | @headings hs gs r hd rows out ne hg hr hh _ ih =>
    intro x hx
    rcases List.mem_cons.1 hx with rfl | hx
    · obtain ⟨_, h2, h3, _⟩ := hh
      cases hg with
      | nil => exact absurd rfl ne
      | @cons a g as gs' h4 _ =>
        have hp := (h a (by simp)).2.2.2 g h4
        obtain ⟨h5, h6⟩ := joined_heading (gs := g :: gs') (by simp) hp
        refine ⟨fun key hk => hasColumn_of_cell (h3 key ?_), ⟨_, h2⟩, .inl ⟨_, h2, h5, h6⟩⟩
        simp only [List.mem_cons, List.not_mem_nil, or_false] at hk ⊢; tauto
    · rcases List.mem_cons.1 hx with rfl | hx
      · exact complete_readable (h _ (by simp))
      · exact ih (fun r hr => h r (by simp [hr])) x hx

end Verif
