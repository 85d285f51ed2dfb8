import Verif.Proofs.CsvReader
/-!
# Merging section headings a second time
-/

namespace Verif

theorem reduce_cons_ne {c : Char} {s : PyStr} (h : ¬ ∃ r, c :: s = ' ' :: ' ' :: r) : reduceBlanks (c :: s) = c :: reduceBlanks s := by
  conv => lhs; unfold reduceBlanks
  split
  · rename_i r heq
    exact absurd ⟨r, heq⟩ h
  · rename_i heq
    cases heq
    rfl
  · rename_i heq; cases heq

theorem reduce_head (c : Char) (s : PyStr) : ∃ r, reduceBlanks (c :: s) = c :: r := by
  by_cases h : ∃ r, c :: s = ' ' :: ' ' :: r
  · obtain ⟨r, h⟩ := h
    cases h
    exact ⟨_, rfl⟩
  · exact ⟨_, reduce_cons_ne h⟩

theorem reduce_length : ∀ s : PyStr, (reduceBlanks s).length ≤ s.length
  | [] => by simp [reduceBlanks]
  | [c] => by rw [reduce_cons_ne (by rintro ⟨r, h⟩; cases h)]; simp [reduceBlanks]
  | c :: d :: s => by
    by_cases h : ∃ r, c :: d :: s = ' ' :: ' ' :: r
    · obtain ⟨r, h⟩ := h
      cases h
      have := reduce_length s
      simp only [reduceBlanks, List.length_cons]
      omega
    · rw [reduce_cons_ne h]
      have := reduce_length (d :: s)
      simp only [List.length_cons] at this ⊢
      omega

/-- the last character stays -/
theorem reduce_snoc : ∀ (s : PyStr) (c : Char), ∃ r, reduceBlanks (s ++ [c]) = r ++ [c]
  | [], c => ⟨[], by rw [List.nil_append, reduce_cons_ne (by rintro ⟨r, h⟩; cases h)]; rfl⟩
  | [d], c => by
    by_cases h : ∃ r, d :: [c] = ' ' :: ' ' :: r
    · obtain ⟨r, h⟩ := h
      cases h
      exact ⟨[], rfl⟩
    · refine ⟨[d], ?_⟩
      rw [show [d] ++ [c] = d :: [c] from rfl, reduce_cons_ne h, reduce_cons_ne (by rintro ⟨r, h⟩; cases h)]
      rfl
  | d :: e :: s, c => by
    by_cases h : ∃ r, d :: e :: (s ++ [c]) = ' ' :: ' ' :: r
    · obtain ⟨r, h⟩ := h
      cases h
      obtain ⟨r, h⟩ := reduce_snoc s c
      exact ⟨' ' :: r, by simp [reduceBlanks, h]⟩
    · obtain ⟨r, h'⟩ := reduce_snoc (e :: s) c
      refine ⟨d :: r, ?_⟩
      rw [show d :: e :: s ++ [c] = d :: (e :: (s ++ [c])) from rfl, reduce_cons_ne h]
      rw [show e :: (s ++ [c]) = e :: s ++ [c] from rfl, h']
      rfl

/-- nothing is reduced exactly if there are no two blanks in a row -/
theorem reduce_fixed : ∀ s : PyStr, reduceBlanks s = s ↔ ¬ py!"  " <:+: s
  | [] => by
    refine ⟨fun _ h => ?_, fun _ => rfl⟩
    have := h.length_le
    simp at this
  | [c] => by
    refine ⟨fun _ h => ?_, fun _ => by rw [reduce_cons_ne (by rintro ⟨r, h⟩; cases h)]; rfl⟩
    have := h.length_le
    simp at this
  | c :: d :: s => by
    by_cases h : ∃ r, c :: d :: s = ' ' :: ' ' :: r
    · obtain ⟨r, h⟩ := h
      cases h
      refine ⟨fun hf => ?_, fun hn => absurd ⟨[], s, rfl⟩ hn⟩
      have h1 := congrArg List.length hf
      have h2 := reduce_length s
      simp only [reduceBlanks, List.length_cons] at h1
      omega
    · rw [reduce_cons_ne h, List.cons.injEq, and_iff_right rfl, reduce_fixed (d :: s), List.infix_cons_iff (l₂ := d :: s)]
      have hp : ¬ py!"  " <+: c :: d :: s := by
        rintro ⟨r, hr⟩
        exact h ⟨r, hr.symm⟩
      simp [hp]

/-- a reduced text is trimmed if the text is -/
theorem strip_reduce {s : PyStr} (h : strip s = s) : strip (reduceBlanks s) = reduceBlanks s := by
  unfold strip
  rw [lstrip_of_head, rstrip_of_last]
  · intro r c hr
    rcases List.eq_nil_or_concat s with rfl | ⟨s', c', rfl⟩
    · simp [reduceBlanks] at hr
    · rw [List.concat_eq_append] at hr h
      obtain ⟨r', hr'⟩ := reduce_snoc s' c'
      rw [hr'] at hr
      obtain ⟨_, hc⟩ := List.append_inj' hr rfl
      cases hc
      exact strip_last h
  · intro c r hr
    cases s with
    | nil => cases hr
    | cons c' s' =>
      obtain ⟨r', hr'⟩ := reduce_head c' s'
      rw [hr'] at hr
      cases hr
      exact strip_head h

theorem heading_fixed (m : PyStr) :
    replaceStr py!"  " py!" " (strip (' ' :: replaceStr py!"  " py!" " (strip m))) = replaceStr py!"  " py!" " (strip m) ↔
      ¬ py!"  " <:+: replaceStr py!"  " py!" " (strip m) := by
  have h : ∀ s, replaceStr py!"  " py!" " s = reduceBlanks s := fun s => by rw [replaceStr, replace_double]
  rw [strip_cons_space (by decide), h, h, strip_reduce (strip_strip m), reduce_fixed]

theorem artificialRow_form {merged : PyStr} {row hd : RawRow} (h : artificialRow merged row = .ok hd) :
    ∃ i : Int, ∀ merged', artificialRow merged' row = .ok (([], some (intToDec (i - 1))) ::
        (py!"Segment Gruppe", some (replaceStr py!"  " py!" " (strip merged'))) :: contentKeys.map fun key => (key, some [])) := by
  unfold artificialRow at h ⊢
  simp only [Bind.bind, Except.bind, pure, Except.pure] at h ⊢
  split at h
  · cases h
  · rename_i v hv
    cases v with
    | none => cases h
    | some s =>
      simp only at h ⊢
      cases hi : pyInt s with
      | none => rw [hi] at h; cases h
      | some i => exact ⟨i, fun _ => rfl⟩

/-- the text of a heading row -/
theorem artificial_text {x : PyStr} {t g : PyStr} (h : SectionOnly (([], some x) :: (py!"Segment Gruppe", some t) ::
    contentKeys.map fun key => (key, some [])) g) : g = t := by
  have h1 := cell_eq.1 h.1
  have h2 : dictGet py!"Segment Gruppe" (([], some x) :: (py!"Segment Gruppe", some t) ::
      contentKeys.map fun key => (key, some ([] : PyStr))) = some (some t) := rfl
  rw [h2] at h1
  cases h1
  rfl

theorem mergeLoop_twice (rows : List RawRow) : ∀ (merged : PyStr) (out : List RawRow), mergeLoop merged rows = .ok out →
    (∃ out', mergeLoop [] out = .ok out' ∧ out'.length = out.length) ∧
    (mergeLoop [] out = .ok out ↔ ∀ h ∈ out, ∀ g, SectionOnly h g → ¬ py!"  " <:+: g) := by
  induction rows with
  | nil =>
    intro merged out h
    cases h
    exact ⟨⟨[], rfl, rfl⟩, ⟨fun _ h hh => (List.not_mem_nil hh).elim, fun _ => rfl⟩⟩
  | cons row rows ih =>
    intro merged out h
    cases hs : sectionOnly? row with
    | some g =>
      rw [mergeLoop_some hs] at h
      exact ih _ _ h
    | none =>
      have hrow : ∀ g, ¬ SectionOnly row g := fun g hg => (sectionOnly?_none row).1 hs ⟨g, hg⟩
      have plain : ∀ result, mergeLoop [] rows = .ok result →
          (∃ out', mergeLoop [] (row :: result) = .ok out' ∧ out'.length = (row :: result).length) ∧
          (mergeLoop [] (row :: result) = .ok (row :: result) ↔ ∀ h ∈ row :: result, ∀ g, SectionOnly h g → ¬ py!"  " <:+: g) := by
        intro result hr
        obtain ⟨⟨o, h1, h2⟩, h3⟩ := ih _ _ hr
        rw [mergeLoop_nil hs]
        refine ⟨⟨row :: o, by rw [h1]; rfl, by simp [h2]⟩, ?_⟩
        rw [List.forall_mem_cons, and_iff_right (fun g hg => absurd hg (hrow g)), ← h3, h1]
        constructor
        · intro h; cases h; rfl
        · intro h; cases h; rfl
      by_cases hm : merged = []
      · subst hm
        rw [mergeLoop_nil hs] at h
        cases hr : mergeLoop [] rows with
        | error e => rw [hr] at h; cases h
        | ok result =>
          rw [hr] at h
          cases h
          exact plain result hr
      · have hlen : merged.length > 0 := List.length_pos_of_ne_nil hm
        rw [mergeLoop_heading hs hlen] at h
        cases ha : artificialRow merged row with
        | error e => rw [ha] at h; cases h
        | ok hd =>
          cases hr : mergeLoop [] rows with
          | error e => rw [ha, hr] at h; cases h
          | ok result =>
            rw [ha, hr] at h
            cases h
            obtain ⟨i, hform⟩ := artificialRow_form ha
            have hhd := ha
            rw [hform] at hhd
            cases hhd
            obtain ⟨⟨o, h1, h2⟩, h3⟩ := plain result hr
            generalize hhead : (([], some (intToDec (i - 1))) :: (py!"Segment Gruppe", some (replaceStr py!"  " py!" " (strip merged))) ::
              contentKeys.map fun key => (key, some [])) = hd at *
            cases hso : sectionOnly? hd with
            | none =>
              rw [mergeLoop_nil hso]
              refine ⟨⟨hd :: o, by rw [h1]; rfl, by simp [h2]⟩, ?_⟩
              rw [List.forall_mem_cons, and_iff_right (fun g hg => absurd ⟨g, hg⟩ ((sectionOnly?_none hd).1 hso)), ← h3, h1]
              constructor
              · intro h; cases h; rfl
              · intro h; cases h; rfl
            | some g =>
              have hg := (sectionOnly?_iff hd g).1 hso
              have hgt : g = replaceStr py!"  " py!" " (strip merged) := artificial_text (hhead ▸ hg)
              rw [mergeLoop_some hso, mergeLoop_heading hs (by simp), hform]
              obtain ⟨⟨o2, h4, h5⟩, h6⟩ := ih _ _ hr
              rw [h4]
              refine ⟨⟨_, rfl, by simp [h5]⟩, ?_⟩
              rw [List.forall_mem_cons, List.forall_mem_cons, and_iff_right (a := ∀ g, SectionOnly row g → _) (fun g hg => absurd hg (hrow g)),
                ← h6, h4]
              have hall : (∀ g', SectionOnly hd g' → ¬ py!"  " <:+: g') ↔ ¬ py!"  " <:+: g := by
                constructor
                · intro h; exact h g hg
                · intro h g' hg'
                  have : g' = g := by rw [hgt]; exact artificial_text (hhead ▸ hg')
                  rwa [this]
              rw [hall, hgt, ← heading_fixed, ← hhead, ← hgt]
              show (Except.ok (_ :: row :: o2) : PyRes (List RawRow)) = .ok (_ :: row :: result) ↔ _ ∧ (Except.ok o2 : PyRes (List RawRow)) = .ok result
              simp [hgt]

/-- texts without surrounding whitespace and without two blanks in a row have no two blanks in a row when they are joined by blanks -/
theorem join_no_double (gs : List PyStr) (h : ∀ g ∈ gs, g ≠ [] ∧ strip g = g ∧ ¬ py!"  " <:+: g) : ¬ py!"  " <:+: pyJoin py!" " gs := by
  rw [← chain_iff_no_double]
  induction gs with
  | nil => exact List.isChain_nil
  | cons g gs ih =>
    obtain ⟨h1, h2, h3⟩ := h g (by simp)
    have hch := (chain_iff_no_double g).2 h3
    cases gs with
    | nil => simpa [pyJoin] using hch
    | cons g2 gs =>
      have ih' := ih (fun x hx => h x (by simp [hx]))
      rw [join_cons, List.isChain_append]
      obtain ⟨h4, h5, _⟩ := h g2 (by simp)
      refine ⟨hch, ?_, ?_⟩
      · obtain ⟨c, r, hc⟩ := List.exists_cons_of_ne_nil h4
        obtain ⟨r', hr'⟩ := join_head (g := g2) (gs := gs)
        rw [hc, List.cons_append, ← hc] at hr'
        rw [hr'] at ih' ⊢
        rw [List.isChain_cons_cons]
        refine ⟨?_, ih'⟩
        rintro ⟨_, rfl⟩
        exact absurd (stripped_head h5 hc) (by decide)
      · intro x hx y _
        rintro ⟨rfl, _⟩
        obtain ⟨r', hr'⟩ : ∃ r', g = r' ++ [' '] := by
          rw [Option.mem_def, List.getLast?_eq_some_iff] at hx
          exact hx
        exact absurd (stripped_last h2 hr') (by decide)

end Verif
