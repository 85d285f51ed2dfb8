import Verif.Model.LocationRepr
import Verif.Proofs.Schema
/-!
# The printed form of a location determines the location
-/

namespace Verif

theorem hexDigits_inj {k n m : Nat} (hn : n < 16 ^ k) (hm : m < 16 ^ k) (h : hexDigits k n = hexDigits k m) : n = m := by
  have a := parseHex_hexDigits k n hn
  rw [h, parseHex_hexDigits k m hm] at a
  exact (Option.some.inj a).symm

theorem hexDigits_append_inj {k n m : Nat} (hn : n < 16 ^ k) (hm : m < 16 ^ k) {s t : PyStr} (h : hexDigits k n ++ s = hexDigits k m ++ t) :
    n = m ∧ s = t := by
  obtain ⟨h1, h2⟩ := List.append_inj h (by rw [hexDigits_length, hexDigits_length])
  exact ⟨hexDigits_inj hn hm h1, h2⟩

theorem toNat_lt (c : Char) : c.toNat < 16 ^ 8 := by
  have : c.toNat < 4294967296 := UInt32.toNat_lt c.val
  omega

/-- the ways a character is printed -/
inductive PrintedAs (q c : Char) : PyStr → Prop
  | self (h1 : c ≠ q) (h2 : c ≠ '\\') : PrintedAs q c [c]
  | quote (h : c = q ∨ c = '\\') : PrintedAs q c ['\\', c]
  | tab (h : c = '\t') : PrintedAs q c ['\\', 't']
  | newline (h : c = '\n') : PrintedAs q c ['\\', 'n']
  | return (h : c = '\r') : PrintedAs q c ['\\', 'r']
  | hex2 (h : c.toNat < 16 ^ 2) : PrintedAs q c ('\\' :: 'x' :: hexDigits 2 c.toNat)
  | hex4 (h : c.toNat < 16 ^ 4) : PrintedAs q c ('\\' :: 'u' :: hexDigits 4 c.toNat)
  | hex8 (h : c.toNat < 16 ^ 8) : PrintedAs q c ('\\' :: 'U' :: hexDigits 8 c.toNat)

theorem reprChar_printedAs (printable : Char → Bool) (q c : Char) : PrintedAs q c (reprChar printable q c) := by
  unfold reprChar
  split
  · rename_i h; exact .quote h
  · rename_i h
    have h' : c ≠ q ∧ c ≠ '\\' := ⟨fun e => h (.inl e), fun e => h (.inr e)⟩
    split
    · rename_i h; exact .tab h
    · split
      · rename_i h; exact .newline h
      · split
        · rename_i h; exact .return h
        · split
          · exact .hex2 (by omega)
          · split
            · exact .self h'.1 h'.2
            · split
              · exact .hex2 (by omega)
              · split
                · exact .hex4 (by omega)
                · exact .hex8 (toNat_lt c)

theorem char_toNat_inj {c d : Char} (h : c.toNat = d.toNat) : c = d := Char.ext (UInt32.toNat_inj.1 h)

/-- the printed characters are a prefix code -/
theorem printedAs_inj {q c d : Char} (hq : q = '\'' ∨ q = '"') {x y s t : PyStr} (hx : PrintedAs q c x) (hy : PrintedAs q d y)
    (h : x ++ s = y ++ t) : c = d ∧ s = t := by
  have hqq : ∀ {e : Char}, e = q ∨ e = '\\' → e = '\'' ∨ e = '"' ∨ e = '\\' := by
    intro e he
    rcases he with rfl | rfl
    · rcases hq with rfl | rfl <;> simp
    · simp
  cases hx <;> cases hy <;> simp only [List.cons_append, List.nil_append, List.cons.injEq, true_and] at h
  all_goals first
    | exact h
    | (exfalso; exact ‹c ≠ '\\'› h.1)
    | (exfalso; exact ‹d ≠ '\\'› h.1.symm)
    | (rename_i h1 h2; exact ⟨h1.trans h2.symm, h⟩)
    | (rename_i h1 h2; obtain ⟨h3, h4⟩ := hexDigits_append_inj h1 h2 h; exact ⟨char_toNat_inj h3, h4⟩)
    | (rename_i h1 h2; exfalso; rcases hqq h1 with r | r | r <;> rw [r] at h <;> exact absurd h.1 (by decide))
    | (rename_i h1 h2; exfalso; rcases hqq h2 with r | r | r <;> rw [r] at h <;> exact absurd h.1 (by decide))
    | (exfalso; exact absurd h.1 (by decide))

/-- no printed character begins with the quote -/
theorem printedAs_head {q c : Char} (hq : q = '\'' ∨ q = '"') {x s t : PyStr} (hx : PrintedAs q c x) : x ++ s ≠ q :: t := by
  have hb : '\\' ≠ q := by rcases hq with rfl | rfl <;> decide
  intro h
  cases hx <;> simp only [List.cons_append, List.nil_append, List.cons.injEq] at h
  all_goals first
    | exact ‹c ≠ q› h.1
    | exact hb h.1

theorem reprBody_inj (printable : Char → Bool) {q : Char} (hq : q = '\'' ∨ q = '"') : ∀ {s s' t t' : PyStr},
    s.flatMap (reprChar printable q) ++ q :: t = s'.flatMap (reprChar printable q) ++ q :: t' → s = s' ∧ t = t' := by
  intro s
  induction s with
  | nil =>
    intro s' t t' h
    cases s' with
    | nil => exact ⟨rfl, (List.cons.inj h).2⟩
    | cons c s' =>
      rw [List.flatMap_cons, List.append_assoc] at h
      exact absurd h.symm (printedAs_head hq (reprChar_printedAs printable q c))
  | cons c s ih =>
    intro s' t t' h
    cases s' with
    | nil =>
      rw [List.flatMap_cons, List.append_assoc] at h
      exact absurd h (printedAs_head hq (reprChar_printedAs printable q c))
    | cons c' s' =>
      rw [List.flatMap_cons, List.flatMap_cons, List.append_assoc, List.append_assoc] at h
      obtain ⟨rfl, h1⟩ := printedAs_inj hq (reprChar_printedAs printable q c) (reprChar_printedAs printable q c') h
      obtain ⟨rfl, h2⟩ := ih h1
      exact ⟨rfl, h2⟩

theorem reprQuote_or (s : PyStr) : reprQuote s = '\'' ∨ reprQuote s = '"' := by
  unfold reprQuote
  split
  · exact .inr rfl
  · exact .inl rfl

/-- where the printed string ends can be told from what is printed -/
theorem reprStr_inj (printable : Char → Bool) {s s' t t' : PyStr} (h : reprStr printable s ++ t = reprStr printable s' ++ t') :
    s = s' ∧ t = t' := by
  unfold reprStr at h
  rw [List.cons_append, List.cons_append, List.append_assoc, List.append_assoc, List.cons.injEq] at h
  obtain ⟨h1, h2⟩ := h
  rw [← h1] at h2
  exact reprBody_inj printable (reprQuote_or s) h2

theorem reprOptStr_inj (printable : Char → Bool) {o o' : Option PyStr} {t t' : PyStr}
    (h : reprOptStr printable o ++ t = reprOptStr printable o' ++ t') : o = o' ∧ t = t' := by
  have hN : ∀ (s u v : PyStr), py!"None" ++ u ≠ reprStr printable s ++ v := by
    intro s u v h
    have := (List.cons.inj h).1
    rcases reprQuote_or s with hq | hq <;> rw [hq] at this <;> exact absurd this (by decide)
  cases o with
  | none =>
    cases o' with
    | none => exact ⟨rfl, List.append_cancel_left h⟩
    | some s => exact absurd h (hN _ _ _)
  | some s =>
    cases o' with
    | none => exact absurd h.symm (hN _ _ _)
    | some s' =>
      obtain ⟨rfl, h2⟩ := reprStr_inj printable h
      exact ⟨rfl, h2⟩

theorem layer_repr_inj (printable : Char → Bool) {l l' : AhbLocationLayer} {t t' : PyStr}
    (h : l.repr printable ++ t = l'.repr printable ++ t') : l = l' ∧ t = t' := by
  unfold AhbLocationLayer.repr at h
  simp only [List.append_assoc] at h
  obtain ⟨h1, h⟩ := reprOptStr_inj printable (List.append_cancel_left h)
  obtain ⟨h2, h⟩ := reprStr_inj printable (List.append_cancel_left h)
  obtain ⟨h3, h⟩ := reprOptStr_inj printable (List.append_cancel_left h)
  refine ⟨?_, List.append_cancel_left h⟩
  cases l
  cases l'
  cases h1
  cases h2
  cases h3
  rfl

theorem layers_tail_inj (printable : Char → Bool) : ∀ {ls ls' : List AhbLocationLayer} {t t' : PyStr},
    (ls.flatMap fun x => py!", " ++ x.repr printable) ++ (py!"]" ++ t) = (ls'.flatMap fun x => py!", " ++ x.repr printable) ++ (py!"]" ++ t') →
      ls = ls' ∧ t = t' := by
  intro ls
  induction ls with
  | nil =>
    intro ls' t t' h
    cases ls' with
    | nil => exact ⟨rfl, List.append_cancel_left h⟩
    | cons x ls' => exact absurd (List.cons.inj h).1 (by decide)
  | cons x ls ih =>
    intro ls' t t' h
    cases ls' with
    | nil => exact absurd (List.cons.inj h).1 (by decide)
    | cons x' ls' =>
      rw [List.flatMap_cons, List.flatMap_cons] at h
      simp only [List.append_assoc] at h
      obtain ⟨rfl, h1⟩ := layer_repr_inj printable (List.append_cancel_left h)
      obtain ⟨rfl, h2⟩ := ih (by simpa using h1)
      exact ⟨rfl, h2⟩

theorem reprLayers_inj (printable : Char → Bool) {ls ls' : List AhbLocationLayer} {t t' : PyStr}
    (h : reprLayers printable ls ++ t = reprLayers printable ls' ++ t') : ls = ls' ∧ t = t' := by
  have hne : ∀ (x : AhbLocationLayer) (u v : PyStr), py!"]" ++ u ≠ x.repr printable ++ v := by
    intro x u v h
    exact absurd (List.cons.inj h).1 (by decide)
  cases ls with
  | nil =>
    cases ls' with
    | nil => exact ⟨rfl, List.append_cancel_left h⟩
    | cons x ls' =>
      exfalso
      simp only [reprLayers, List.append_assoc] at h
      exact hne x _ _ (List.cons.inj h).2
  | cons x ls =>
    cases ls' with
    | nil =>
      exfalso
      simp only [reprLayers, List.append_assoc] at h
      exact hne x _ _ (List.cons.inj h).2.symm
    | cons x' ls' =>
      simp only [reprLayers, List.append_assoc] at h
      obtain ⟨rfl, h1⟩ := layer_repr_inj printable (List.append_cancel_left h)
      obtain ⟨rfl, h2⟩ := layers_tail_inj printable h1
      exact ⟨rfl, h2⟩

theorem location_str_inj (printable : Char → Bool) {a b : AhbLocation} (h : a.str printable = b.str printable) : a = b := by
  unfold AhbLocation.str at h
  have hp : a.pseudo = b.pseudo := by
    cases ha : a.pseudo <;> cases hb : b.pseudo <;> try rfl
    all_goals
      rw [ha, hb] at h
      simp at h
  rw [hp] at h
  simp only [List.append_assoc] at h
  obtain ⟨h1, h⟩ := reprLayers_inj printable (List.append_cancel_left h)
  obtain ⟨h2, h⟩ := reprOptStr_inj printable (List.append_cancel_left h)
  obtain ⟨h3, h⟩ := reprOptStr_inj printable (List.append_cancel_left h)
  obtain ⟨h4, _⟩ := reprOptStr_inj printable (List.append_cancel_left h)
  cases a
  cases b
  simp_all

theorem location_str_head (printable : Char → Bool) (loc : AhbLocation) :
    (loc.str printable).head? = some 'A' ∨ (loc.str printable).head? = some '_' := by
  unfold AhbLocation.str
  cases loc.pseudo
  · exact .inl rfl
  · exact .inr rfl

end Verif
