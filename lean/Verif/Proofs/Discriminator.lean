import Verif.Proofs.Flat
/-! injectivity of `AhbLine.get_discriminator` on well formed lines -/

namespace Verif
open List

theorem append_sep_inj {c : Char} {x x' r r' : PyStr} (hx : c ∉ x) (hx' : c ∉ x')
    (h : x ++ c :: r = x' ++ c :: r') : x = x' ∧ r = r' := by
  induction x generalizing x' with
  | nil =>
    cases x' with
    | nil => simpa using h
    | cons a x' =>
      simp only [nil_append, cons_append, List.cons.injEq] at h
      exact absurd (h.1 ▸ List.mem_cons_self) hx'
  | cons a x ih =>
    cases x' with
    | nil =>
      simp only [nil_append, cons_append, List.cons.injEq] at h
      exact absurd (h.1 ▸ List.mem_cons_self) hx
    | cons b x' =>
      simp only [cons_append, List.cons.injEq] at h
      obtain ⟨h1, h2⟩ := ih (fun hc => hx (List.mem_cons_of_mem _ hc)) (fun hc => hx' (List.mem_cons_of_mem _ hc)) h.2
      exact ⟨by rw [h.1, h1], h2⟩

theorem isAZ_not_digit {c : Char} (h : isAZ c = true) : isDigit c = false := by
  have key : ∀ n ≤ 90, 65 ≤ n → (digitRanges.any fun r => r.1 ≤ n && n ≤ r.2) = false := by decide
  simp only [isAZ, Bool.and_eq_true, decide_eq_true_eq] at h
  have h1 : 65 ≤ c.toNat := h.1
  have h2 : c.toNat ≤ 90 := h.2
  exact key _ h2 h1

/-- characters of the three constrained fields: letters, digits, newline -/
def plainChar (c : Char) : Bool := isAZ c || isaz c || isDigit c || c == '\n'

theorem plain_sep {s : PyStr} (h : ∀ c ∈ s, plainChar c = true) : '-' ∉ s ∧ ' ' ∉ s :=
  ⟨fun hc => absurd (h _ hc) (by decide), fun hc => absurd (h _ hc) (by decide)⟩

theorem sg_plain {s : PyStr} (h : UpToNewline IsSgKey s) : ∀ c ∈ s, plainChar c = true := by
  rw [upToNewline_iff] at h
  obtain ⟨t, r, ⟨d, _, hd, rfl⟩, rfl, hr⟩ := h
  intro c hc
  simp only [List.mem_append] at hc
  rcases hc with (hc | hc) | hc
  · simp only [List.mem_cons, List.not_mem_nil, or_false] at hc
    rcases hc with rfl | rfl <;> decide
  · simp [plainChar, hd c hc]
  · rcases hr with rfl | rfl
    · simp at hc
    · simp only [List.mem_singleton] at hc; subst hc; decide

theorem code_chars {s : PyStr} (h : UpToNewline IsUpperWord s) : s ≠ [] ∧ ∀ c ∈ s, isAZ c = true ∨ c = '\n' := by
  rw [upToNewline_iff] at h
  obtain ⟨t, r, ⟨hne, hd⟩, rfl, hr⟩ := h
  refine ⟨by simp [hne], fun c hc => ?_⟩
  rw [List.mem_append] at hc
  rcases hc with hc | hc
  · exact .inl (mem_capitals.1 (hd c hc))
  · rcases hr with rfl | rfl
    · simp at hc
    · exact .inr (by simpa using hc)

theorem code_plain {s : PyStr} (h : UpToNewline IsUpperWord s) : ∀ c ∈ s, plainChar c = true := by
  intro c hc
  rcases (code_chars h).2 c hc with h | rfl
  · simp [plainChar, h]
  · decide

theorem de_plain {s : PyStr} (h : UpToNewline IsFlatDataElement s) :
    (∀ c ∈ s, plainChar c = true) ∧ ∃ c ∈ s, isDigit c = true := by
  rw [upToNewline_iff] at h
  obtain ⟨t, r, ht, rfl, hr⟩ := h
  have hr' : ∀ c ∈ r, plainChar c = true := by
    rcases hr with rfl | rfl
    · simp
    · simp; decide
  have dig : ∀ d : PyStr, d.length = 4 ∨ d.length = 5 → (∀ c ∈ d, isDigit c = true) → ∃ c ∈ d, isDigit c = true := by
    intro d hd h
    cases d with
    | nil => simp at hd
    | cons c d => exact ⟨c, List.mem_cons_self, h c List.mem_cons_self⟩
  have lift : ((∀ c ∈ t, plainChar c = true) ∧ ∃ c ∈ t, isDigit c = true) →
      (∀ c ∈ t ++ r, plainChar c = true) ∧ ∃ c ∈ t ++ r, isDigit c = true := by
    rintro ⟨h1, c, hc, h2⟩
    refine ⟨fun c hc => ?_, c, List.mem_append_left _ hc, h2⟩
    rw [List.mem_append] at hc
    exact hc.elim (h1 c) (hr' c)
  apply lift
  rcases ht with ⟨h1, h2⟩ | ⟨h1, h2⟩ | ⟨l, d, _, hl, ⟨h1, h2⟩, rfl⟩
  · exact ⟨fun c hc => by simp [plainChar, h2 c hc], dig _ (.inl h1) h2⟩
  · exact ⟨fun c hc => by simp [plainChar, h2 c hc], dig _ (.inr h1) h2⟩
  · constructor
    · intro c hc
      rw [List.mem_append] at hc
      rcases hc with hc | hc
      · have := hl c hc; rw [mem_capitals, mem_smallLetters] at this; simp only [plainChar]; rcases this with h | h <;> simp [h]
      · simp [plainChar, h2 c hc]
    · obtain ⟨c, hc, h⟩ := dig d (.inl h1) h2
      exact ⟨c, List.mem_append_right _ hc, h⟩

theorem fmtOpt_plain {o : Option PyStr} (h : ∀ s, o = some s → ∀ c ∈ s, plainChar c = true) :
    ∀ c ∈ AhbLine.fmtOpt o, plainChar c = true := by
  cases o with
  | none => simp only [AhbLine.fmtOpt]; decide
  | some s => exact h s rfl

theorem fmtOpt_inj {o o' : Option PyStr} (h1 : o ≠ some py!"None") (h2 : o' ≠ some py!"None")
    (h : AhbLine.fmtOpt o = AhbLine.fmtOpt o') : o = o' := by
  cases o <;> cases o' <;> simp_all [AhbLine.fmtOpt]

/-- the discriminator without the name -/
def baseDisc (l : AhbLine) : PyStr :=
  (if truthy l.segmentGroupKey then AhbLine.fmtOpt l.segmentGroupKey ++ py!"->" else []) ++
    (AhbLine.fmtOpt l.segmentCode ++ py!"->" ++ AhbLine.fmtOpt l.dataElement)

/-- the name part -/
def nameDisc (l : AhbLine) : PyStr :=
  if truthy l.name then py!" (" ++ AhbLine.fmtOpt l.name ++ py!")" else []

theorem getDiscriminator_false (l : AhbLine) : l.getDiscriminator false = baseDisc l := by
  simp [AhbLine.getDiscriminator, baseDisc]

theorem getDiscriminator_true (l : AhbLine) : l.getDiscriminator true = baseDisc l ++ nameDisc l := by
  unfold AhbLine.getDiscriminator nameDisc
  by_cases h : truthy l.name = true
  · simp only [h, Bool.and_self, if_true]; rfl
  · simp only [h, Bool.false_and, Bool.false_eq_true, if_false, List.append_nil]; rfl

theorem key_truthy {l : AhbLine} (h : l.WellFormed) : truthy l.segmentGroupKey = l.segmentGroupKey.isSome := by
  cases hk : l.segmentGroupKey with
  | none => rfl
  | some s =>
    have := h.2.1 s hk
    rw [upToNewline_iff] at this
    obtain ⟨t, r, ⟨d, _, _, rfl⟩, rfl, _⟩ := this
    simp [truthy]

theorem code_ne_none {l : AhbLine} (h : l.WellFormed) : l.segmentCode ≠ some py!"None" := by
  intro hc
  rcases (code_chars (h.2.2 _ hc)).2 'o' (by decide) with h | h
  · exact absurd h (by decide)
  · exact absurd h (by decide)

theorem de_ne_none {l : AhbLine} (h : l.WellFormed) : l.dataElement ≠ some py!"None" := by
  intro hc
  obtain ⟨c, h1, h2⟩ := (de_plain (h.1 _ hc)).2
  simp only [List.mem_cons, List.not_mem_nil, or_false] at h1
  rcases h1 with rfl | rfl | rfl | rfl <;> exact absurd h2 (by decide)

theorem fmtCode_no_digit {l : AhbLine} (h : l.WellFormed) : ∀ c ∈ AhbLine.fmtOpt l.segmentCode, isDigit c = false := by
  cases hk : l.segmentCode with
  | none => simp only [AhbLine.fmtOpt]; decide
  | some s =>
    intro c hc
    rcases (code_chars (h.2.2 _ hk)).2 c hc with h | rfl
    · exact isAZ_not_digit h
    · decide

theorem sg_has_digit {s : PyStr} (h : UpToNewline IsSgKey s) : ∃ c ∈ s, isDigit c = true := by
  rw [upToNewline_iff] at h
  obtain ⟨t, r, ⟨d, hne, hd, rfl⟩, rfl, _⟩ := h
  cases d with
  | nil => exact absurd rfl hne
  | cons c d => exact ⟨c, by simp, hd c List.mem_cons_self⟩

theorem fmtKey_plain {l : AhbLine} (h : l.WellFormed) : ∀ c ∈ AhbLine.fmtOpt l.segmentGroupKey, plainChar c = true :=
  fmtOpt_plain fun s hs => sg_plain (h.2.1 s hs)
theorem fmtCode_plain {l : AhbLine} (h : l.WellFormed) : ∀ c ∈ AhbLine.fmtOpt l.segmentCode, plainChar c = true :=
  fmtOpt_plain fun s hs => code_plain (h.2.2 s hs)
theorem fmtDe_plain {l : AhbLine} (h : l.WellFormed) : ∀ c ∈ AhbLine.fmtOpt l.dataElement, plainChar c = true :=
  fmtOpt_plain fun s hs => (de_plain (h.1 s hs)).1

/-- code and data element, followed by anything -/
theorem tail_inj {a b : AhbLine} (ha : a.WellFormed) (hb : b.WellFormed) {x y : PyStr}
    (h : AhbLine.fmtOpt a.segmentCode ++ py!"->" ++ AhbLine.fmtOpt a.dataElement ++ x =
      AhbLine.fmtOpt b.segmentCode ++ py!"->" ++ AhbLine.fmtOpt b.dataElement ++ y) :
    a.segmentCode = b.segmentCode ∧ AhbLine.fmtOpt a.dataElement ++ x = AhbLine.fmtOpt b.dataElement ++ y := by
  simp only [List.append_assoc, List.cons_append, List.nil_append] at h
  obtain ⟨h1, h2⟩ := append_sep_inj (plain_sep (fmtCode_plain ha)).1 (plain_sep (fmtCode_plain hb)).1 h
  exact ⟨fmtOpt_inj (code_ne_none ha) (code_ne_none hb) h1, (List.cons.inj h2).2⟩

theorem base_inj {a b : AhbLine} (ha : a.WellFormed) (hb : b.WellFormed) {x y : PyStr}
    (h : baseDisc a ++ x = baseDisc b ++ y) :
    a.segmentGroupKey = b.segmentGroupKey ∧ a.segmentCode = b.segmentCode ∧
      AhbLine.fmtOpt a.dataElement ++ x = AhbLine.fmtOpt b.dataElement ++ y := by
  unfold baseDisc at h
  rw [key_truthy ha, key_truthy hb] at h
  have mixed : ∀ {a b : AhbLine} {k : PyStr} {x y : PyStr}, a.WellFormed → b.WellFormed →
      b.segmentGroupKey = some k →
      AhbLine.fmtOpt a.segmentCode ++ py!"->" ++ AhbLine.fmtOpt a.dataElement ++ x =
        k ++ py!"->" ++ (AhbLine.fmtOpt b.segmentCode ++ py!"->" ++ AhbLine.fmtOpt b.dataElement) ++ y → False := by
    intro a b k x y ha hb hk h
    simp only [List.append_assoc, List.cons_append, List.nil_append] at h
    obtain ⟨h1, _⟩ := append_sep_inj (plain_sep (fmtCode_plain ha)).1 (plain_sep (sg_plain (hb.2.1 k hk))).1 h
    obtain ⟨c, hc, hd⟩ := sg_has_digit (hb.2.1 k hk)
    rw [fmtCode_no_digit ha c (h1 ▸ hc)] at hd
    exact absurd hd (by decide)
  cases hka : a.segmentGroupKey with
  | none =>
    cases hkb : b.segmentGroupKey with
    | none =>
      rw [hka, hkb] at h
      simp only [Option.isSome_none, Bool.false_eq_true, if_false, List.nil_append] at h
      exact ⟨rfl, tail_inj ha hb h⟩
    | some k =>
      rw [hka, hkb] at h
      simp only [Option.isSome_none, Option.isSome_some, if_true, Bool.false_eq_true, if_false, List.nil_append,
        AhbLine.fmtOpt.eq_2] at h
      exact (mixed ha hb hkb h).elim
  | some k =>
    cases hkb : b.segmentGroupKey with
    | none =>
      rw [hka, hkb] at h
      simp only [Option.isSome_none, Option.isSome_some, if_true, Bool.false_eq_true, if_false, List.nil_append,
        AhbLine.fmtOpt.eq_2] at h
      exact (mixed hb ha hka h.symm).elim
    | some k' =>
      rw [hka, hkb] at h
      simp only [Option.isSome_some, if_true, AhbLine.fmtOpt.eq_2] at h
      have h' : k ++ '-' :: ('>' :: (AhbLine.fmtOpt a.segmentCode ++ py!"->" ++ AhbLine.fmtOpt a.dataElement ++ x)) =
        k' ++ '-' :: ('>' :: (AhbLine.fmtOpt b.segmentCode ++ py!"->" ++ AhbLine.fmtOpt b.dataElement ++ y)) := by
        simpa only [List.append_assoc, List.cons_append, List.nil_append] using h
      obtain ⟨h1, h2⟩ := append_sep_inj (plain_sep (sg_plain (ha.2.1 k hka))).1
        (plain_sep (sg_plain (hb.2.1 k' hkb))).1 h'
      exact ⟨by rw [h1], tail_inj ha hb (List.cons.inj h2).2⟩

theorem name_inj {a b : AhbLine} (h : nameDisc a = nameDisc b) : a.name.getD [] = b.name.getD [] := by
  have key : ∀ l : AhbLine, nameDisc l = if l.name.getD [] = [] then [] else py!" (" ++ l.name.getD [] ++ py!")" := by
    intro l
    unfold nameDisc
    cases hn : l.name with
    | none => simp [truthy]
    | some s => cases s <;> simp [truthy, AhbLine.fmtOpt]
  rw [key, key] at h
  split at h <;> split at h
  · simp_all
  · simp at h
  · simp at h
  · simpa using h

theorem nameDisc_cases (l : AhbLine) : nameDisc l = [] ∨ ∃ r, nameDisc l = ' ' :: r := by
  unfold nameDisc
  split
  · exact .inr ⟨_, rfl⟩
  · exact .inl rfl

theorem de_name_inj {x y n m : PyStr} (hx : ' ' ∉ x) (hy : ' ' ∉ y) (hn : n = [] ∨ ∃ r, n = ' ' :: r)
    (hm : m = [] ∨ ∃ r, m = ' ' :: r) (h : x ++ n = y ++ m) : x = y ∧ n = m := by
  rcases hn with rfl | ⟨r, rfl⟩ <;> rcases hm with rfl | ⟨r', rfl⟩
  · simpa using h
  · rw [List.append_nil] at h; exact absurd (by simp [h]) hx
  · rw [List.append_nil] at h; exact absurd (by simp [← h]) hy
  · obtain ⟨h1, h2⟩ := append_sep_inj hx hy h
    exact ⟨h1, by rw [h2]⟩

end Verif
