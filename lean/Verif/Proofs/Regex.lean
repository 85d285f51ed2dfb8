import Verif.Py.Regex
/-! lemmas about the regex engine -/

namespace Verif
namespace Re

theorem mem_eps {st t : MSt} : t ∈ run eps st ↔ t = st := by simp [run]

theorem mem_seq {a b : Re} {st t : MSt} : t ∈ run (seq a b) st ↔ ∃ u ∈ run a st, t ∈ run b u := by
  simp [run]

theorem mem_alt {a b : Re} {st t : MSt} : t ∈ run (alt a b) st ↔ t ∈ run a st ∨ t ∈ run b st := by
  simp [run]

theorem mem_bol {st t : MSt} : t ∈ run bol st ↔ st.pos = 0 ∧ t = st := by
  simp only [run]; split <;> simp_all

theorem mem_eol {st t : MSt} : t ∈ run eol st ↔ (st.rest = [] ∨ st.rest = ['\n']) ∧ t = st := by
  simp only [run]; split <;> simp_all

theorem mem_nla {a : Re} {st t : MSt} : t ∈ run (nla a) st ↔ run a st = [] ∧ t = st := by
  simp only [run, List.isEmpty_iff]; split <;> simp_all

theorem mem_grp {n : Nat} {a : Re} {st t : MSt} : t ∈ run (grp n a) st ↔
    ∃ u ∈ run a st, t = { u with caps := (n, st.rest.take (st.rest.length - u.rest.length)) :: u.caps } := by
  simp only [run, List.mem_map]
  constructor <;> rintro ⟨u, h1, h2⟩ <;> exact ⟨u, h1, h2.symm⟩

/-- consuming the word `w` of the input `w ++ s` -/
def adv (st : MSt) (w s : PyStr) : MSt := { st with pos := st.pos + w.length, rest := s }

@[simp] theorem adv_rest (st : MSt) (w s) : (adv st w s).rest = s := rfl
@[simp] theorem adv_pos (st : MSt) (w s) : (adv st w s).pos = st.pos + w.length := rfl
@[simp] theorem adv_caps (st : MSt) (w s) : (adv st w s).caps = st.caps := rfl

theorem adv_nil (st : MSt) : adv st [] st.rest = st := by simp [adv]
theorem adv_adv (st : MSt) (w s w' s') : adv (adv st w s) w' s' = adv st (w ++ w') s' := by
  simp [adv, Nat.add_assoc]

theorem mem_cls {p : Char → Bool} {st t : MSt} : t ∈ run (cls p) st ↔
    ∃ c s, st.rest = c :: s ∧ p c = true ∧ t = adv st [c] s := by
  simp only [run]
  cases h : st.rest with
  | nil => simp
  | cons c s =>
    by_cases hp : p c = true
    · simp only [hp, if_true, List.mem_singleton]
      constructor
      · rintro rfl
        exact ⟨c, s, rfl, hp, rfl⟩
      · rintro ⟨c', s', heq, _, rfl⟩
        cases heq; rfl
    · simp only [hp, Bool.false_eq_true, if_false, List.not_mem_nil, false_iff]
      rintro ⟨c', s', heq, hp', _⟩
      cases heq; exact hp hp'

theorem mem_chr {c : Char} {st t : MSt} : t ∈ run (chr c) st ↔ ∃ s, st.rest = c :: s ∧ t = adv st [c] s := by
  simp only [chr, mem_cls, beq_iff_eq]
  constructor
  · rintro ⟨c', s, h, rfl, rfl⟩; exact ⟨s, h, rfl⟩
  · rintro ⟨s, h, rfl⟩; exact ⟨c, s, h, rfl, rfl⟩

theorem mem_str {w : PyStr} {st t : MSt} : t ∈ run (str w) st ↔ ∃ s, st.rest = w ++ s ∧ t = adv st w s := by
  induction w generalizing st t with
  | nil =>
    simp only [str, mem_eps, List.nil_append]
    constructor
    · rintro rfl; exact ⟨_, rfl, (adv_nil _).symm⟩
    · rintro ⟨s, rfl, rfl⟩; exact adv_nil _
  | cons c w ih =>
    cases w with
    | nil => simp only [str, mem_chr, List.cons_append, List.nil_append]
    | cons c' w =>
      simp only [str, mem_seq, mem_chr]
      constructor
      · rintro ⟨u, ⟨s, hs, rfl⟩, hu⟩
        obtain ⟨s', hs', rfl⟩ := ih.1 hu
        simp only [adv_rest] at hs'
        exact ⟨s', by simp [hs, hs'], by rw [adv_adv]; rfl⟩
      · rintro ⟨s, hs, rfl⟩
        exact ⟨_, ⟨_, hs, rfl⟩, ih.2 ⟨s, rfl, by rw [adv_adv]; rfl⟩⟩

theorem mem_iter_cls {p : Char → Bool} {g : Bool} (n : Nat) {st t : MSt} (hn : st.rest.length ≤ n) :
    t ∈ iter (run (cls p)) g n st ↔ ∃ w s, st.rest = w ++ s ∧ w.all p = true ∧ t = adv st w s := by
  induction n generalizing st t with
  | zero =>
    have : st.rest = [] := List.length_eq_zero_iff.1 (by omega)
    simp only [iter, List.mem_singleton]
    constructor
    · rintro rfl; exact ⟨[], [], by simp [this], by simp, by have := adv_nil t; simp_all⟩
    · rintro ⟨w, s, h, _, rfl⟩
      have hw : w = [] ∧ s = [] := by simpa [this] using h
      obtain ⟨rfl, rfl⟩ := hw
      simpa [this] using adv_nil st
  | succ n ih =>
    have key : t ∈ ((run (cls p) st).filter fun s => s.rest.length < st.rest.length).flatMap (iter (run (cls p)) g n) ∨ t = st ↔
        ∃ w s, st.rest = w ++ s ∧ w.all p = true ∧ t = adv st w s := by
      constructor
      · rintro (h | rfl)
        · simp only [List.mem_flatMap, List.mem_filter, decide_eq_true_eq] at h
          obtain ⟨u, ⟨hu, hlt⟩, ht⟩ := h
          obtain ⟨c, s, hs, hp, rfl⟩ := mem_cls.1 hu
          obtain ⟨w, s', hs', hw, rfl⟩ := (ih (st := adv st [c] s) (by simp [hs] at hn ⊢; omega)).1 ht
          simp only [adv_rest] at hs'
          exact ⟨c :: w, s', by simp [hs, hs'], by simp [hp, hw], by rw [adv_adv]; rfl⟩
        · exact ⟨[], t.rest, rfl, by simp, (adv_nil t).symm⟩
      · rintro ⟨w, s, hs, hw, rfl⟩
        cases w with
        | nil => right; simp only [List.nil_append] at hs; rw [← hs]; exact adv_nil st
        | cons c w =>
          left
          simp only [List.all_cons, Bool.and_eq_true] at hw
          simp only [List.mem_flatMap, List.mem_filter, decide_eq_true_eq]
          refine ⟨adv st [c] (w ++ s), ⟨mem_cls.2 ⟨c, w ++ s, hs, hw.1, rfl⟩, by simp [hs]⟩, ?_⟩
          exact (ih (by simp [hs] at hn ⊢; omega)).2 ⟨w, s, rfl, hw.2, by rw [adv_adv]; rfl⟩
    rw [← key]
    simp only [iter]
    split
    · simp [or_comm]
    · simp [or_comm]

theorem mem_star_cls {p : Char → Bool} {g : Bool} {st t : MSt} : t ∈ run (star g (cls p)) st ↔
    ∃ w s, st.rest = w ++ s ∧ w.all p = true ∧ t = adv st w s := by
  simp only [run]
  exact mem_iter_cls _ (Nat.le_refl _)

theorem mem_plus_cls {p : Char → Bool} {st t : MSt} : t ∈ run (plus (cls p)) st ↔
    ∃ w s, w ≠ [] ∧ st.rest = w ++ s ∧ w.all p = true ∧ t = adv st w s := by
  simp only [plus, mem_seq, mem_cls, mem_star_cls]
  constructor
  · rintro ⟨u, ⟨c, s, hs, hp, rfl⟩, w, s', hs', hw, rfl⟩
    simp only [adv_rest] at hs'
    exact ⟨c :: w, s', by simp, by simp [hs, hs'], by simp [hp, hw], by rw [adv_adv]; rfl⟩
  · rintro ⟨w, s, hne, hs, hw, rfl⟩
    cases w with
    | nil => exact absurd rfl hne
    | cons c w =>
      simp only [List.all_cons, Bool.and_eq_true] at hw
      exact ⟨_, ⟨c, w ++ s, hs, hw.1, rfl⟩, w, s, rfl, hw.2, by rw [adv_adv]; rfl⟩

theorem mem_rep_cls {p : Char → Bool} {n : Nat} {st t : MSt} : t ∈ run (rep n (cls p)) st ↔
    ∃ w s, w.length = n ∧ st.rest = w ++ s ∧ w.all p = true ∧ t = adv st w s := by
  induction n generalizing st t with
  | zero =>
    simp only [rep, mem_eps]
    constructor
    · rintro rfl; exact ⟨[], t.rest, rfl, rfl, by simp, (adv_nil t).symm⟩
    · rintro ⟨w, s, hw, hs, _, rfl⟩
      obtain rfl := List.length_eq_zero_iff.1 hw
      simp only [List.nil_append] at hs
      rw [← hs]; exact adv_nil st
  | succ n ih =>
    simp only [rep, mem_seq, mem_cls]
    constructor
    · rintro ⟨u, ⟨c, s, hs, hp, rfl⟩, hu⟩
      obtain ⟨w, s', hl, hs', hw, rfl⟩ := ih.1 hu
      simp only [adv_rest] at hs'
      exact ⟨c :: w, s', by simp [hl], by simp [hs, hs'], by simp [hp, hw], by rw [adv_adv]; rfl⟩
    · rintro ⟨w, s, hl, hs, hw, rfl⟩
      cases w with
      | nil => simp at hl
      | cons c w =>
        simp only [List.all_cons, Bool.and_eq_true] at hw
        exact ⟨_, ⟨c, w ++ s, hs, hw.1, rfl⟩, ih.2 ⟨w, s, by simpa using hl, rfl, hw.2, by rw [adv_adv]; rfl⟩⟩

theorem fullMatch_isSome {r : Re} {s : PyStr} :
    (r.fullMatch s).isSome = true ↔ ∃ t ∈ run r { pos := 0, rest := s }, t.rest = [] := by
  simp [fullMatch, List.find?_isSome]

theorem pyMatch_isSome {r : Re} {s : PyStr} :
    (r.pyMatch s).isSome = true ↔ ∃ t, t ∈ run r { pos := 0, rest := s } := by
  simp only [pyMatch]
  cases run r { pos := 0, rest := s } with
  | nil => simp
  | cons a l => simp only [List.head?_cons, Option.isSome_some, true_iff]; exact ⟨a, by simp⟩

end Re
end Verif
