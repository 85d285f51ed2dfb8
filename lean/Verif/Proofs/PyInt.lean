import Verif.Spec.Csv
import Verif.Proofs.Qualifiers
/-!
# `int(s)`
-/

namespace Verif

theorem splitChar_iff (c : Char) (s : PyStr) (ps : List PyStr) :
    splitChar c s = ps ↔ ps ≠ [] ∧ s = List.intercalate [c] ps ∧ ∀ p ∈ ps, c ∉ p := by
  constructor
  · intro h
    induction s generalizing ps with
    | nil => subst h; simp [splitChar, List.intercalate]
    | cons x s ih =>
      obtain ⟨h1, h2, h3⟩ := ih _ rfl
      by_cases hx : x = c
      · subst hx
        rw [splitChar_cons_eq] at h
        subst h
        refine ⟨by simp, ?_, ?_⟩
        · obtain ⟨p, q, hq⟩ := List.exists_cons_of_ne_nil h1
          rw [hq] at h2 ⊢
          rw [h2]
          rfl
        · simpa using h3
      · obtain ⟨p, q, hq⟩ := List.exists_cons_of_ne_nil h1
        rw [splitChar_cons_ne hx hq] at h
        subst h
        rw [hq] at h2 h3
        refine ⟨by simp, ?_, ?_⟩
        · rw [h2]
          cases q <;> rfl
        · intro r hr
          rcases List.mem_cons.1 hr with rfl | hr
          · simp only [List.mem_cons, not_or]
            exact ⟨Ne.symm hx, h3 p (by simp)⟩
          · exact h3 r (by simp [hr])
  · rintro ⟨h1, rfl, h3⟩
    induction ps with
    | nil => exact absurd rfl h1
    | cons p ps ih =>
      cases ps with
      | nil => simpa [List.intercalate] using splitChar_none (h3 p (by simp))
      | cons q ps =>
        have := ih (by simp) fun r hr => h3 r (by simp [hr])
        have e : List.intercalate [c] (p :: q :: ps) = p ++ c :: List.intercalate [c] (q :: ps) := rfl
        rw [e]
        have h5 : splitChar c (c :: List.intercalate [c] (q :: ps)) = [] :: q :: ps := by rw [splitChar_cons_eq, this]
        rw [splitChar_prefix (h3 p (by simp)) h5]
        simp

theorem mem_takeWhile_imp {α} {p : α → Bool} {s : List α} {c : α} (h : c ∈ s.takeWhile p) : p c = true := by
  induction s with
  | nil => cases h
  | cons x s ih =>
    rw [List.takeWhile_cons] at h
    split at h
    · rename_i hx
      rcases List.mem_cons.1 h with rfl | h
      · exact hx
      · exact ih h
    · cases h

/-- stripping is the only way to write a text as a middle part between stripped characters -/
theorem stripBy_iff (f : Char → Bool) (s m : PyStr) (hh : ∀ c r, m = c :: r → f c = false) (hl : ∀ r c, m = r ++ [c] → f c = false)
    (hne : m ≠ []) : ((s.dropWhile f).reverse.dropWhile f).reverse = m ↔ ∃ a b, s = a ++ m ++ b ∧ ∀ c ∈ a ++ b, f c = true := by
  have aux : ∀ (a m : PyStr), (∀ c ∈ a, f c = true) → (∀ c r, m = c :: r → f c = false) → (a ++ m).dropWhile f = m := by
    intro a m ha hm
    induction a with
    | nil =>
      cases m with
      | nil => rfl
      | cons c r => simp [hm c r rfl]
    | cons x a ih => simp [ha x (by simp), ih fun c hc => ha c (by simp [hc])]
  constructor
  · intro h
    refine ⟨s.takeWhile f, ((s.dropWhile f).reverse.takeWhile f).reverse, ?_, ?_⟩
    · rw [← h, List.append_assoc, ← List.reverse_append, List.takeWhile_append_dropWhile, List.reverse_reverse,
        List.takeWhile_append_dropWhile]
    · intro c hc
      rcases List.mem_append.1 hc with hc | hc
      · exact mem_takeWhile_imp hc
      · exact mem_takeWhile_imp (List.mem_reverse.1 hc)
  · rintro ⟨a, b, rfl, hab⟩
    rw [List.append_assoc, aux a (m ++ b) (fun c hc => hab c (by simp [hc]))]
    · rw [List.reverse_append, aux b.reverse m.reverse (fun c hc => hab c (by simp at hc; simp [hc])), List.reverse_reverse]
      intro c r hr
      exact hl r.reverse c (by rw [← List.reverse_reverse m, hr]; simp)
    · intro c r hr
      cases m with
      | nil => exact absurd rfl hne
      | cons x m => cases hr; exact hh c m rfl

theorem isDigit_ne {c d : Char} (h : isDigit c = true) (hd : isDigit d = false) : c ≠ d := by
  rintro rfl; rw [h] at hd; cases hd

theorem digit_notSpace {c : Char} (h : isDigit c = true) : isSpace c = false := by
  by_contra hs
  simp only [isDigit, digitRanges, List.any_cons, List.any_nil, Bool.or_eq_true, Bool.and_eq_true, decide_eq_true_eq] at h
  simp only [isSpace, Bool.not_eq_false, Bool.or_eq_true, Bool.and_eq_true, decide_eq_true_eq, beq_iff_eq] at hs
  simp only [Bool.false_eq_true, or_false] at h
  omega

theorem isIntSpace_iff (c : Char) : isIntSpace c = true ↔ c ∈ whiteSpace ∧ c ∉ ['\x1c', '\x1d', '\x1e', '\x1f'] := by
  unfold isIntSpace
  rw [Bool.and_eq_true, mem_whiteSpace]
  refine and_congr_right fun _ => ?_
  simp only [Bool.not_eq_true', Bool.and_eq_false_iff, decide_eq_false_iff_not, List.mem_cons, List.not_mem_nil, or_false]
  have key : ∀ d : Char, c = d ↔ c.toNat = d.toNat := fun d => ⟨fun h => by rw [h], fun h => Char.toNat_inj.1 h⟩
  simp only [key]
  have : ('\x1c').toNat = 28 ∧ ('\x1d').toNat = 29 ∧ ('\x1e').toNat = 30 ∧ ('\x1f').toNat = 31 := by decide
  omega

/-- the digits of `pyInt` -/
def intDigits (t : PyStr) : Option Nat :=
  let parts := splitChar '_' t
  if parts.all fun p => !p.isEmpty && p.all isDigit then some (decToNat parts.flatten) else none

theorem intDigits_iff (t : PyStr) (n : Nat) : intDigits t = some n ↔ ∃ groups : List PyStr, t = List.intercalate ['_'] groups ∧
    groups ≠ [] ∧ (∀ g ∈ groups, g ≠ [] ∧ ∀ c ∈ g, isDigit c = true) ∧ n = decToNat groups.flatten := by
  unfold intDigits
  simp only
  split
  · rename_i h
    have h' : ∀ g ∈ splitChar '_' t, g ≠ [] ∧ ∀ c ∈ g, isDigit c = true := by
      intro g hg
      have := List.all_eq_true.1 h g hg
      simpa using this
    constructor
    · intro he
      cases he
      obtain ⟨h1, h2, _⟩ := (splitChar_iff '_' t _).1 rfl
      exact ⟨_, h2, h1, h', rfl⟩
    · rintro ⟨gs, h1, h2, h3, rfl⟩
      rw [(splitChar_iff '_' t gs).2 ⟨h2, h1, fun p hp hc => absurd ((h3 p hp).2 _ hc) (by decide)⟩]
  · rename_i h
    simp only [reduceCtorEq, false_iff]
    rintro ⟨gs, h1, h2, h3, rfl⟩
    rw [(splitChar_iff '_' t gs).2 ⟨h2, h1, fun p hp hc => absurd ((h3 p hp).2 _ hc) (by decide)⟩] at h
    refine h (List.all_eq_true.2 fun p hp => ?_)
    have := h3 p hp
    simpa using this

theorem pyInt_eq (s : PyStr) : pyInt s = match ((s.dropWhile isIntSpace).reverse.dropWhile isIntSpace).reverse with
    | '-' :: t => (intDigits t).map fun (n : Nat) => -(n : Int)
    | '+' :: t => (intDigits t).map fun (n : Nat) => (n : Int)
    | t => (intDigits t).map fun (n : Nat) => (n : Int) := rfl

theorem intercalate_mem {c : Char} {gs : List PyStr} {x : Char} (h : x ∈ List.intercalate [c] gs) : x = c ∨ ∃ g ∈ gs, x ∈ g := by
  induction gs with
  | nil => simp [List.intercalate] at h
  | cons g gs ih =>
    cases gs with
    | nil => right; exact ⟨g, by simp, by simpa [List.intercalate] using h⟩
    | cons g' gs =>
      have e : List.intercalate [c] (g :: g' :: gs) = g ++ c :: List.intercalate [c] (g' :: gs) := rfl
      rw [e] at h
      simp only [List.mem_append, List.mem_cons] at h
      rcases h with h | h | h
      · exact .inr ⟨g, by simp, h⟩
      · exact .inl h
      · rcases ih h with h | ⟨k, hk, h⟩
        · exact .inl h
        · exact .inr ⟨k, by simp [hk], h⟩

theorem pyInt_iff (s : PyStr) (i : Int) : pyInt s = some i ↔ IntText s i := by
  rw [pyInt_eq]
  -- the characters of the middle part are no whitespace
  have good : ∀ (sign : PyStr) (gs : List PyStr), sign = [] ∨ sign = ['+'] ∨ sign = ['-'] →
      (∀ g ∈ gs, g ≠ [] ∧ ∀ c ∈ g, isDigit c = true) → ∀ c ∈ sign ++ List.intercalate ['_'] gs, isIntSpace c = false := by
    intro sign gs hs hg c hc
    have : isSpace c = false := by
      rcases List.mem_append.1 hc with hc | hc
      · rcases hs with rfl | rfl | rfl
        · cases hc
        · rw [List.mem_singleton.1 hc]; decide
        · rw [List.mem_singleton.1 hc]; decide
      · rcases intercalate_mem hc with rfl | ⟨g, hg', hc⟩
        · decide
        · exact digit_notSpace ((hg g hg').2 c hc)
    simp [isIntSpace, this]
  have ne : ∀ (sign : PyStr) (gs : List PyStr), gs ≠ [] → (∀ g ∈ gs, g ≠ [] ∧ ∀ c ∈ g, isDigit c = true) →
      sign ++ List.intercalate ['_'] gs ≠ [] := by
    intro sign gs h1 h2 he
    obtain ⟨g, gs, rfl⟩ := List.exists_cons_of_ne_nil h1
    have : List.intercalate ['_'] (g :: gs) = [] := (List.append_eq_nil_iff.1 he).2
    apply (h2 g (by simp)).1
    cases gs with
    | nil => simpa [List.intercalate] using this
    | cons g' gs =>
      have e : List.intercalate ['_'] (g :: g' :: gs) = g ++ '_' :: List.intercalate ['_'] (g' :: gs) := rfl
      rw [e] at this
      simp at this
  have mid : ∀ (sign : PyStr) (gs : List PyStr), sign = [] ∨ sign = ['+'] ∨ sign = ['-'] → gs ≠ [] →
      (∀ g ∈ gs, g ≠ [] ∧ ∀ c ∈ g, isDigit c = true) →
      (((s.dropWhile isIntSpace).reverse.dropWhile isIntSpace).reverse = sign ++ List.intercalate ['_'] gs ↔
        ∃ a b, s = a ++ (sign ++ List.intercalate ['_'] gs) ++ b ∧ ∀ c ∈ a ++ b, isIntSpace c = true) := by
    intro sign gs hs h1 h2
    refine stripBy_iff isIntSpace s _ ?_ ?_ (ne sign gs h1 h2)
    · intro c r hc
      exact good sign gs hs h2 c (by rw [hc]; simp)
    · intro r c hc
      exact good sign gs hs h2 c (by rw [hc]; simp)
  have digitHead : ∀ (gs : List PyStr) (d : Char) (t : PyStr), gs ≠ [] → (∀ g ∈ gs, g ≠ [] ∧ ∀ c ∈ g, isDigit c = true) →
      List.intercalate ['_'] gs = d :: t → isDigit d = true := by
    intro gs d t h1 h2 he
    obtain ⟨g, gs, rfl⟩ := List.exists_cons_of_ne_nil h1
    obtain ⟨x, g, rfl⟩ := List.exists_cons_of_ne_nil (h2 g (by simp)).1
    have : x = d := by cases gs <;> (cases he; rfl)
    exact this ▸ (h2 (x :: g) (by simp)).2 x (by simp)
  constructor
  · intro h
    have fin : ∀ (sign : PyStr) (gs : List PyStr), sign = [] ∨ sign = ['+'] ∨ sign = ['-'] → gs ≠ [] →
        (∀ g ∈ gs, g ≠ [] ∧ ∀ c ∈ g, isDigit c = true) →
        ((s.dropWhile isIntSpace).reverse.dropWhile isIntSpace).reverse = sign ++ List.intercalate ['_'] gs →
        ((sign = [] ∨ sign = ['+']) ∧ i = decToNat gs.flatten ∨ sign = ['-'] ∧ i = -decToNat gs.flatten) → IntText s i := by
      intro sign gs hs h1 h2 h3 h4
      obtain ⟨a, b, h5, h6⟩ := (mid sign gs hs h1 h2).1 h3
      exact ⟨a, sign, b, gs, by rw [h5]; simp, fun c hc => (isIntSpace_iff c).1 (h6 c hc), h1, h2, h4⟩
    split at h
    · rename_i t heq
      simp only [Option.map_eq_some_iff] at h
      obtain ⟨n, h, rfl⟩ := h
      obtain ⟨gs, rfl, h1, h2, rfl⟩ := (intDigits_iff _ _).1 h
      exact fin ['-'] gs (by simp) h1 h2 heq (.inr ⟨rfl, rfl⟩)
    · rename_i t heq
      simp only [Option.map_eq_some_iff] at h
      obtain ⟨n, h, rfl⟩ := h
      obtain ⟨gs, rfl, h1, h2, rfl⟩ := (intDigits_iff _ _).1 h
      exact fin ['+'] gs (by simp) h1 h2 heq (.inl ⟨.inr rfl, rfl⟩)
    · simp only [Option.map_eq_some_iff] at h
      obtain ⟨n, h, rfl⟩ := h
      obtain ⟨gs, h0, h1, h2, rfl⟩ := (intDigits_iff _ _).1 h
      exact fin [] gs (by simp) h1 h2 h0 (.inl ⟨.inl rfl, rfl⟩)
  · rintro ⟨a, sign, b, gs, h0, hab, h1, h2, h3⟩
    have hs : sign = [] ∨ sign = ['+'] ∨ sign = ['-'] := by
      rcases h3 with ⟨h | h, _⟩ | ⟨h, _⟩ <;> simp [h]
    rw [(mid sign gs hs h1 h2).2 ⟨a, b, by rw [h0]; simp, fun c hc => (isIntSpace_iff c).2 (hab c hc)⟩]
    have hd := (intDigits_iff (List.intercalate ['_'] gs) _).2 ⟨gs, rfl, h1, h2, rfl⟩
    rcases h3 with ⟨rfl | rfl, rfl⟩ | ⟨rfl, rfl⟩
    · simp only [List.nil_append]
      split
      · rename_i t heq
        exact absurd (digitHead gs _ _ h1 h2 heq) (by decide)
      · rename_i t heq
        exact absurd (digitHead gs _ _ h1 h2 heq) (by decide)
      · rw [hd]; rfl
    · simp only [List.singleton_append, hd]; rfl
    · simp only [List.singleton_append, hd]; rfl

end Verif
