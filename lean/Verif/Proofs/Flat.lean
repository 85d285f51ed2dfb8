import Mathlib.Data.List.Basic
import Mathlib.Data.List.Nodup
import Mathlib.Tactic.Tauto
import Verif.Spec.Flat
import Verif.Model.Flat
import Verif.Proofs.Regex
import Verif.Proofs.Codes
/-! lemmas for flat AHBs: patterns, splitting, segment groups, sorting -/

namespace Verif
open Re List

/-! ## patterns -/

theorem upToNewline_iff {P : PyStr → Prop} {s : PyStr} :
    UpToNewline P s ↔ ∃ t r, P t ∧ s = t ++ r ∧ (r = [] ∨ r = ['\n']) := by
  constructor
  · rintro (h | ⟨t, h, rfl⟩)
    · exact ⟨s, [], h, by simp, .inl rfl⟩
    · exact ⟨t, _, h, rfl, .inr rfl⟩
  · rintro ⟨t, r, h, rfl, rfl | rfl⟩
    · exact .inl (by simpa using h)
    · exact .inr ⟨t, h, rfl⟩

theorem flatSgRe_iff (s : PyStr) : (flatSgRe.pyMatch s).isSome = true ↔ UpToNewline IsSgKey s := by
  rw [pyMatch_isSome, upToNewline_iff]
  simp only [flatSgRe, mem_seq, mem_bol, mem_str, mem_plus_cls, mem_eol, IsSgKey]
  constructor
  · rintro ⟨t, u, ⟨_, rfl⟩, v, ⟨s', h1, rfl⟩, w, ⟨d, s'', hd, h2, h3, rfl⟩, h4, rfl⟩
    simp only [adv_rest] at h2 h4 h1
    exact ⟨py!"SG" ++ d, s'', ⟨d, hd, by simpa using h3, rfl⟩, by simp_all, h4⟩
  · rintro ⟨t, r, ⟨d, hd, h3, rfl⟩, rfl, hr⟩
    refine ⟨_, _, ⟨trivial, rfl⟩, _, ⟨d ++ r, by simp, rfl⟩, _, ⟨d, r, hd, by simp, by simpa using h3, rfl⟩, ?_, rfl⟩
    simpa using hr

theorem flatSegmentCodeRe_iff (s : PyStr) : (flatSegmentCodeRe.pyMatch s).isSome = true ↔ UpToNewline IsUpperWord s := by
  rw [pyMatch_isSome, upToNewline_iff]
  simp only [flatSegmentCodeRe, mem_seq, mem_bol, mem_plus_cls, mem_eol, IsUpperWord, mem_capitals]
  constructor
  · rintro ⟨t, u, ⟨_, rfl⟩, w, ⟨d, s'', hd, h2, h3, rfl⟩, h4, rfl⟩
    simp only [adv_rest] at h2 h4
    exact ⟨d, s'', ⟨hd, by simpa using h3⟩, h2, h4⟩
  · rintro ⟨t, r, ⟨hd, h3⟩, rfl, hr⟩
    exact ⟨_, _, ⟨trivial, rfl⟩, _, ⟨t, r, hd, rfl, by simpa using h3, rfl⟩, by simpa using hr, rfl⟩

theorem flatDataElementRe_iff (s : PyStr) :
    (flatDataElementRe.pyMatch s).isSome = true ↔ UpToNewline IsFlatDataElement s := by
  rw [pyMatch_isSome, upToNewline_iff]
  simp only [flatDataElementRe, mem_alt, mem_seq, mem_bol, mem_plus_cls, mem_rep_cls, mem_eol, IsFlatDataElement,
    IsFourDigits, mem_capitals, mem_smallLetters]
  constructor
  · rintro ⟨t, ⟨u, ⟨_, rfl⟩, w, ⟨d, s'', hd, h2, h3, rfl⟩, h4, rfl⟩ | ⟨u, ⟨_, rfl⟩, w, ⟨d, s'', hd, h2, h3, rfl⟩, h4, rfl⟩
      | ⟨u, ⟨_, rfl⟩, w, ⟨l, s', hl, h1, h5, rfl⟩, x, ⟨d, s'', hd, h2, h3, rfl⟩, h4, rfl⟩⟩
    · simp only [adv_rest] at h2 h4
      exact ⟨d, s'', .inl ⟨hd, by simpa using h3⟩, h2, h4⟩
    · simp only [adv_rest] at h2 h4
      exact ⟨d, s'', .inr (.inl ⟨hd, by simpa using h3⟩), h2, h4⟩
    · simp only [adv_rest] at h1 h2 h4
      exact ⟨l ++ d, s'', .inr (.inr ⟨l, d, hl, by simpa using h5, ⟨hd, by simpa using h3⟩, rfl⟩), by simp_all, h4⟩
  · rintro ⟨t, r, ⟨hd, h3⟩ | ⟨hd, h3⟩ | ⟨l, d, hl, h5, ⟨hd, h3⟩, rfl⟩, rfl, hr⟩
    · exact ⟨_, .inl ⟨_, ⟨trivial, rfl⟩, _, ⟨t, r, hd, rfl, by simpa using h3, rfl⟩, by simpa using hr, rfl⟩⟩
    · exact ⟨_, .inr (.inl ⟨_, ⟨trivial, rfl⟩, _, ⟨t, r, hd, rfl, by simpa using h3, rfl⟩, by simpa using hr, rfl⟩)⟩
    · exact ⟨_, .inr (.inr ⟨_, ⟨trivial, rfl⟩, _, ⟨l, d ++ r, hl, by simp, by simpa using h5, rfl⟩, _,
        ⟨d, r, hd, by simp, by simpa using h3, rfl⟩, by simpa using hr, rfl⟩)⟩

theorem noneOrMatch_iff {r : Re} {P : PyStr → Prop} (h : ∀ s, (r.pyMatch s).isSome = true ↔ P s) (o : Option PyStr) :
    noneOrMatch r o = true ↔ ∀ s, o = some s → P s := by
  cases o with
  | none => simp [noneOrMatch]
  | some s => simp [noneOrMatch, h]

theorem flatOk_iff (l : AhbLine) : l.flatOk = true ↔ l.WellFormed := by
  simp only [AhbLine.flatOk, Bool.and_eq_true, AhbLine.WellFormed, noneOrMatch_iff flatDataElementRe_iff,
    noneOrMatch_iff flatSgRe_iff, noneOrMatch_iff flatSegmentCodeRe_iff, and_assoc]

theorem checkLines_iff (lines : List AhbLine) : FlatAhb.checkLines lines = .ok () ↔
    (∀ l ∈ lines, l.WellFormed) ∧ checkNearlyAllHaveSg lines = true := by
  unfold FlatAhb.checkLines
  by_cases h1 : checkNearlyAllHaveSg lines = true
  · by_cases h2 : lines.all AhbLine.flatOk = true
    · simp only [h1, h2, Bool.not_true, Bool.false_eq_true, if_false, and_true, true_iff]
      intro l hl
      exact (flatOk_iff l).1 (List.all_eq_true.1 h2 l hl)
    · simp only [h1, h2, Bool.not_true, Bool.false_eq_true, if_false, and_true, Bool.not_false]
      simp only [if_true, reduceCtorEq, false_iff]
      intro h
      exact h2 (List.all_eq_true.2 fun l hl => (flatOk_iff l).2 (h l hl))
  · simp [h1]

/-! ## split_when -/

section split
variable {α : Type} (p : α → α → Bool)

theorem splitWhen_cons_length (x : α) (l : List α) :
    (splitWhen p (x :: l)).length ≤ 1 + (splitWhen p l).length := by
  cases l with
  | nil => simp [splitWhen]
  | cons y l =>
    rw [splitWhen]
    split
    · simp; omega
    · split <;> simp_all

theorem splitWhen_append_length (a b : List α) :
    (splitWhen p (a ++ b)).length ≤ (splitWhen p a).length + (splitWhen p b).length := by
  induction a with
  | nil => simp
  | cons x a ih =>
    cases a with
    | nil => have := splitWhen_cons_length p x b; simpa [splitWhen] using this
    | cons y a =>
      simp only [List.cons_append] at ih ⊢
      rw [splitWhen, splitWhen]
      split
      · simp only [List.length_cons]; omega
      · have h1 : (splitWhen p (y :: a)).length ≠ 0 := by
          cases a with
          | nil => simp [splitWhen]
          | cons z a => rw [splitWhen]; split; simp; split <;> simp
        generalize splitWhen p (y :: a) = A at ih h1 ⊢
        generalize splitWhen p (y :: (a ++ b)) = B at ih ⊢
        cases A with
        | nil => simp at h1
        | cons g gs => cases B with
          | nil => simp only [List.length_cons, List.length_nil]; omega
          | cons g' gs' => simpa using ih

theorem splitWhen_homogeneous (l : List α) (h : l.Pairwise fun x y => p x y = false) :
    (splitWhen p l).length ≤ 1 := by
  induction l with
  | nil => simp [splitWhen]
  | cons x l ih =>
    have ih := ih h.tail
    cases l with
    | nil => simp [splitWhen]
    | cons y l =>
      rw [splitWhen, if_neg (by simp [List.rel_of_pairwise_cons h List.mem_cons_self])]
      split <;> simp_all

theorem splitWhen_flatten (l : List α) : (splitWhen p l).flatten = l := by
  induction l with
  | nil => simp [splitWhen]
  | cons x l ih =>
    cases l with
    | nil => simp [splitWhen]
    | cons y l =>
      rw [splitWhen]
      split
      · simp [ih]
      · split
        · rename_i h; rw [h] at ih; simp at ih
        · rename_i h; rw [h] at ih; simpa using ih

theorem splitWhen_block (b : List α) (hb : b ≠ []) (hin : ∀ pre x y post, b = pre ++ x :: y :: post → p x y = false)
    (rest : List α) (hcut : rest = [] ∨ ∃ u x y v, b = u ++ [x] ∧ rest = y :: v ∧ p x y = true) :
    splitWhen p (b ++ rest) = b :: splitWhen p rest := by
  induction b with
  | nil => exact absurd rfl hb
  | cons z b ih =>
    cases b with
    | nil =>
      rcases hcut with rfl | ⟨u, x, y, v, h1, rfl, h2⟩
      · simp [splitWhen]
      · cases u with
        | nil =>
          cases h1
          simp [splitWhen, h2]
        | cons w u => simp at h1
    | cons w b =>
      have hzw : p z w = false := hin [] z w b rfl
      have := ih (by simp) (fun pre x y post h => hin (z :: pre) x y post (by rw [h]; rfl)) (by
        rcases hcut with h | ⟨u, x, y, v, h1, h2, h3⟩
        · exact .inl h
        · cases u with
          | nil => simp at h1
          | cons a u =>
            rw [List.cons_append] at h1
            exact .inr ⟨u, x, y, v, (List.cons.inj h1).2, h2, h3⟩)
      rw [List.cons_append] at this
      rw [List.cons_append, List.cons_append, splitWhen, hzw, this]
      rfl

theorem splitWhen_nonempty (l : List α) : ∀ b ∈ splitWhen p l, b ≠ [] := by
  induction l with
  | nil => simp [splitWhen]
  | cons x l ih =>
    cases l with
    | nil => simp [splitWhen]
    | cons y l =>
      rw [splitWhen]
      split
      · intro b hb
        rcases List.mem_cons.1 hb with rfl | hb
        · simp
        · exact ih b hb
      · split
        · simp
        · rename_i g gs h
          intro b hb
          rcases List.mem_cons.1 hb with rfl | hb
          · simp
          · exact ih b (by rw [h]; exact List.mem_cons_of_mem _ hb)

theorem splitWhen_head (y : α) (l : List α) : ∃ g gs, splitWhen p (y :: l) = (y :: g) :: gs := by
  cases l with
  | nil => exact ⟨[], [], rfl⟩
  | cons z l =>
    rw [splitWhen]
    split
    · exact ⟨[], _, rfl⟩
    · split
      · exact ⟨[], [], rfl⟩
      · exact ⟨_, _, rfl⟩

theorem splitWhen_inside (l : List α) : ∀ b ∈ splitWhen p l, ∀ pre x y post, b = pre ++ x :: y :: post → p x y = false := by
  have one : ∀ (a : α) pre x y post, [a] = pre ++ x :: y :: post → p x y = false := by
    intro a pre x y post h
    have := congrArg List.length h
    simp at this
    omega
  induction l with
  | nil => simp [splitWhen]
  | cons a l ih =>
    cases l with
    | nil => simpa [splitWhen] using one a
    | cons c l =>
      obtain ⟨g, gs, hg⟩ := splitWhen_head p c l
      rw [splitWhen]
      split
      · intro b hb
        rcases List.mem_cons.1 hb with rfl | hb
        · exact one a
        · exact ih b hb
      · rename_i hp
        rw [hg] at ih ⊢
        intro b hb
        rcases List.mem_cons.1 hb with rfl | hb
        · intro pre x y post h
          cases pre with
          | nil => cases h; simpa using hp
          | cons q pre => exact ih _ List.mem_cons_self pre x y post (List.cons.inj h).2
        · exact ih b (List.mem_cons_of_mem _ hb)

theorem splitWhen_cuts (l : List α) : ∀ pre b c post, splitWhen p l = pre ++ b :: c :: post →
    ∃ u x y v, b = u ++ [x] ∧ c = y :: v ∧ p x y = true := by
  have one : ∀ (a : List α) pre b c post, [a] = pre ++ b :: c :: post → False := by
    intro a pre b c post h
    have := congrArg List.length h
    simp at this
    omega
  induction l with
  | nil => intro pre b c post h; simp [splitWhen] at h
  | cons a l ih =>
    cases l with
    | nil => intro pre b c post h; exact (one _ _ _ _ _ h).elim
    | cons d l =>
      obtain ⟨g, gs, hg⟩ := splitWhen_head p d l
      rw [splitWhen]
      rw [hg] at ih ⊢
      split
      · rename_i hp
        intro pre b c post h
        cases pre with
        | nil =>
          cases h
          exact ⟨[], a, d, g, rfl, rfl, hp⟩
        | cons q pre => exact ih pre b c post (List.cons.inj h).2
      · intro pre b c post h
        cases pre with
        | nil =>
          simp only [List.nil_append, List.cons.injEq] at h
          obtain ⟨rfl, rfl⟩ := h
          obtain ⟨u, x, y, v, h1, h2, h3⟩ := ih [] (d :: g) c post rfl
          exact ⟨a :: u, x, y, v, by rw [h1]; rfl, h2, h3⟩
        | cons q pre =>
          obtain ⟨_, h2⟩ := List.cons.inj h
          exact ih ((d :: g) :: pre) b c post (by rw [h2]; rfl)

theorem splitWhen_unique (blocks : List (List α)) (hne : ∀ b ∈ blocks, b ≠ [])
    (hin : ∀ b ∈ blocks, ∀ pre x y post, b = pre ++ x :: y :: post → p x y = false)
    (hcut : ∀ pre b c post, blocks = pre ++ b :: c :: post → ∃ u x y v, b = u ++ [x] ∧ c = y :: v ∧ p x y = true) :
    splitWhen p blocks.flatten = blocks := by
  induction blocks with
  | nil => rfl
  | cons b bs ih =>
    rw [List.flatten_cons, splitWhen_block p b (hne b List.mem_cons_self) (hin b List.mem_cons_self),
      ih (fun b hb => hne b (List.mem_cons_of_mem _ hb)) (fun b hb => hin b (List.mem_cons_of_mem _ hb))
        (fun pre b c post h => hcut (_ :: pre) b c post (by rw [h]; rfl))]
    cases bs with
    | nil => exact .inl rfl
    | cons c bs =>
      obtain ⟨u, x, y, v, h1, h2, h3⟩ := hcut [] b c bs rfl
      exact .inr ⟨u, x, y, v ++ bs.flatten, h1, by rw [List.flatten_cons, h2]; rfl, h3⟩

end split

theorem noSgToSg_iff (x y : AhbLine) : noSgToSg x y = true ↔ x.segmentGroupKey = none ∧ y.segmentGroupKey ≠ none := by
  unfold noSgToSg
  cases x.segmentGroupKey <;> cases y.segmentGroupKey <;> simp

theorem noSgToSg_false_iff (x y : AhbLine) :
    noSgToSg x y = false ↔ ¬ (x.segmentGroupKey = none ∧ y.segmentGroupKey ≠ none) := by
  rw [← noSgToSg_iff, Bool.not_eq_true]

/-- `split_when` cuts exactly before the groups -/
theorem cutBeforeGroups_iff (lines : List AhbLine) (blocks : List (List AhbLine)) :
    CutBeforeGroups lines blocks ↔ splitWhen noSgToSg lines = blocks := by
  constructor
  · rintro ⟨rfl, h2, h3, h4⟩
    refine splitWhen_unique noSgToSg blocks h2 (fun b hb pre x y post h => ?_) (fun pre b c post h => ?_)
    · exact (noSgToSg_false_iff x y).2 (h3 b hb pre x y post h)
    · obtain ⟨u, x, y, v, e1, e2, e3⟩ := h4 pre b c post h
      exact ⟨u, x, y, v, e1, e2, (noSgToSg_iff x y).2 e3⟩
  · rintro rfl
    refine ⟨splitWhen_flatten _ _, splitWhen_nonempty _ _, fun b hb pre x y post h => ?_, fun pre b c post h => ?_⟩
    · exact (noSgToSg_false_iff x y).1 (splitWhen_inside noSgToSg lines b hb pre x y post h)
    · obtain ⟨u, x, y, v, e1, e2, e3⟩ := splitWhen_cuts noSgToSg lines pre b c post h
      exact ⟨u, x, y, v, e1, e2, (noSgToSg_iff x y).1 e3⟩

theorem controlPieces_eq (blocks : List (List AhbLine)) : (removeGroupedContaining blocks controlSection).length = controlPieces blocks := by
  rw [removeGroupedContaining, controlPieces, ← List.countP_eq_length_filter]
  refine List.countP_congr fun b _ => ?_
  simp [controlSection]

theorem checkNearly_of_length {lines : List AhbLine} (h : (splitWhen noSgToSg lines).length ≤ 2) :
    checkNearlyAllHaveSg lines = true := by
  simp only [checkNearlyAllHaveSg, removeGroupedContaining, Bool.not_eq_true', decide_eq_false_iff_not, gt_iff_lt,
    Nat.not_lt]
  have := List.length_filter_le (fun goal : List AhbLine => goal.any fun l => l.sectionName == some controlSection)
    (splitWhen noSgToSg lines)
  omega

theorem noSgToSg_false_right {x y : AhbLine} (h : y.segmentGroupKey = none) : noSgToSg x y = false := by
  simp [noSgToSg, h]

theorem noSgToSg_false_left {x y : AhbLine} (h : x.segmentGroupKey ≠ none) : noSgToSg x y = false := by
  cases hx : x.segmentGroupKey with
  | none => exact absurd hx h
  | some s => simp [noSgToSg, hx]

theorem pairwise_some_none {a b : List AhbLine} (ha : ∀ l ∈ a, l.segmentGroupKey ≠ none)
    (hb : ∀ l ∈ b, l.segmentGroupKey = none) : (a ++ b).Pairwise fun x y => noSgToSg x y = false := by
  rw [List.pairwise_append]
  refine ⟨?_, ?_, fun x hx y hy => noSgToSg_false_right (hb y hy)⟩
  · exact List.pairwise_of_forall_mem_list fun x hx y hy => noSgToSg_false_left (ha x hx)
  · exact List.pairwise_of_forall_mem_list fun x hx y hy => noSgToSg_false_right (hb y hy)

theorem splitWhen_ends {lines : List AhbLine} (h : NoSgOnlyAtTheEnds lines) :
    (splitWhen noSgToSg lines).length ≤ 2 := by
  obtain ⟨pre, mid, post, rfl, h1, h2, h3⟩ := h
  rw [List.append_assoc]
  have ha := splitWhen_append_length noSgToSg pre (mid ++ post)
  have hb := splitWhen_homogeneous noSgToSg pre (by simpa using pairwise_some_none (a := []) (by simp) h1)
  have hc := splitWhen_homogeneous noSgToSg _ (pairwise_some_none h2 h3)
  omega

theorem splitWhen_one_block {a b c : List AhbLine} (h1 : ∀ l ∈ a, l.segmentGroupKey ≠ none)
    (h2 : ∀ l ∈ b, l.segmentGroupKey = none) (h3 : ∀ l ∈ c, l.segmentGroupKey ≠ none) :
    (splitWhen noSgToSg (a ++ b ++ c)).length ≤ 2 := by
  have ha := splitWhen_append_length noSgToSg (a ++ b) c
  have hb := splitWhen_homogeneous noSgToSg _ (pairwise_some_none h1 h2)
  have hc := splitWhen_homogeneous noSgToSg c (by simpa using pairwise_some_none (b := []) h3 (by simp))
  omega

/-! ## segment groups -/

theorem available_spec (lines : List AhbLine) (acc : List (Option PyStr)) (hacc : acc.Nodup) :
    (availableSegmentGroups acc lines).Nodup ∧
    (∀ k, k ∈ availableSegmentGroups acc lines ↔ k ∈ acc ∨ k ∈ lines.map AhbLine.segmentGroupKey) ∧
    acc <+: availableSegmentGroups acc lines := by
  induction lines generalizing acc with
  | nil => simp [availableSegmentGroups, hacc]
  | cons l ls ih =>
    rw [availableSegmentGroups]
    split
    · rename_i h
      have hnd : (acc ++ [l.segmentGroupKey]).Nodup := by
        rw [List.nodup_append]
        refine ⟨hacc, by simp, ?_⟩
        intro a ha b hb
        simp only [List.mem_singleton] at hb
        subst hb
        intro hab; subst hab; exact h ha
      obtain ⟨h1, h2, h3⟩ := ih _ hnd
      refine ⟨h1, fun k => ?_, ?_⟩
      · rw [h2]; simp only [List.mem_append, List.map_cons, List.mem_cons]
        tauto
      · exact (List.prefix_append _ _).trans h3
    · rename_i h
      have h : l.segmentGroupKey ∈ acc := by simpa using h
      obtain ⟨h1, h2, h3⟩ := ih _ hacc
      refine ⟨h1, fun k => ?_, h3⟩
      rw [h2]; simp only [List.map_cons, List.mem_cons]
      constructor
      · rintro (h | h)
        · exact .inl h
        · exact .inr (.inr h)
      · rintro (h | rfl | h)
        · exact .inl h
        · exact .inl ‹_›
        · exact .inr h

theorem available_order (pre lines : List AhbLine) (acc : List (Option PyStr))
    (hmem : ∀ k, k ∈ acc ↔ k ∈ pre.map AhbLine.segmentGroupKey)
    (hord : acc.Pairwise fun a b => ((pre ++ lines).map AhbLine.segmentGroupKey).idxOf a <
      ((pre ++ lines).map AhbLine.segmentGroupKey).idxOf b) :
    (availableSegmentGroups acc lines).Pairwise fun a b => ((pre ++ lines).map AhbLine.segmentGroupKey).idxOf a <
      ((pre ++ lines).map AhbLine.segmentGroupKey).idxOf b := by
  induction lines generalizing pre acc with
  | nil => simpa [availableSegmentGroups] using hord
  | cons l ls ih =>
    rw [availableSegmentGroups]
    have e : pre ++ l :: ls = (pre ++ [l]) ++ ls := by simp
    split
    · rename_i h
      rw [e] at hord ⊢
      refine ih (pre ++ [l]) _ ?_ ?_
      · intro k; simp [hmem]
      · rw [List.pairwise_append]
        refine ⟨hord, by simp, ?_⟩
        intro a ha b hb
        simp only [List.mem_singleton] at hb
        subst hb
        have ha' := (hmem a).1 ha
        have hl := fun hc => h ((hmem l.segmentGroupKey).2 hc)
        simp only [List.map_append, List.append_assoc]
        rw [List.idxOf_append_of_mem ha', List.idxOf_append_of_notMem hl]
        have := List.idxOf_lt_length_of_mem ha'
        omega
    · rename_i h
      have h : l.segmentGroupKey ∈ acc := by simpa using h
      rw [e] at hord ⊢
      refine ih (pre ++ [l]) _ ?_ hord
      intro k
      simp only [List.map_append, List.mem_append, List.map_cons, List.map_nil, List.mem_singleton]
      rw [← hmem]
      constructor
      · exact .inl
      · rintro (h | rfl)
        · exact h
        · exact ‹_›

/-- a block of lines of one new group -/
theorem available_block (k : Option PyStr) (acc : List (Option PyStr)) (b rest : List AhbLine) (hb : b ≠ [])
    (hk : ∀ l ∈ b, l.segmentGroupKey = k) (hacc : k ∉ acc) :
    availableSegmentGroups acc (b ++ rest) = availableSegmentGroups (acc ++ [k]) rest := by
  cases b with
  | nil => exact absurd rfl hb
  | cons x b =>
    have hx := hk x List.mem_cons_self
    rw [List.cons_append, availableSegmentGroups, if_pos (by rwa [hx]), hx]
    have : ∀ (b : List AhbLine), (∀ l ∈ b, l.segmentGroupKey = k) →
        availableSegmentGroups (acc ++ [k]) (b ++ rest) = availableSegmentGroups (acc ++ [k]) rest := by
      intro b
      induction b with
      | nil => simp
      | cons y b ih =>
        intro h
        rw [List.cons_append, availableSegmentGroups, if_neg (by simp [h y List.mem_cons_self])]
        exact ih fun l hl => h l (List.mem_cons_of_mem _ hl)
    exact this b fun l hl => hk l (List.mem_cons_of_mem _ hl)

/-! ## stable sorting -/

theorem filter_mergeSort {α} (le : α → α → Bool) (p : α → Bool) (trans : ∀ a b c, le a b → le b c → le a c)
    (total : ∀ a b, le a b || le b a) (l : List α) (h : ∀ a b, p a = true → p b = true → le a b = true) :
    (l.mergeSort le).filter p = l.filter p := by
  have hs : l.filter p <+ l.mergeSort le := by
    refine List.sublist_mergeSort trans total ?_ List.filter_sublist
    exact List.pairwise_of_forall_mem_list fun a ha b hb => h a b (List.mem_filter.1 ha).2 (List.mem_filter.1 hb).2
  have hs' := hs.filter p
  rw [List.filter_filter] at hs'
  simp only [Bool.and_self] at hs'
  exact (hs'.eq_of_length ((List.mergeSort_perm l le).filter p).length_eq.symm).symm

theorem eq_filter_append {α} (p : α → Bool) (l : List α) (h : l.Pairwise fun a b => p b = true → p a = true) :
    l = l.filter p ++ l.filter (fun a => !p a) := by
  induction l with
  | nil => rfl
  | cons a l ih =>
    rw [List.pairwise_cons] at h
    by_cases hp : p a = true
    · rw [List.filter_cons_of_pos hp, List.filter_cons_of_neg (by simp [hp]), List.cons_append, ← ih h.2]
    · have hn : ∀ b ∈ l, ¬ p b = true := fun b hb hpb => hp (h.1 b hb hpb)
      rw [List.filter_eq_nil_iff.2 (by simpa [hp] using hn), List.filter_eq_self.2 (by simpa [hp] using hn)]
      rfl

theorem sorted_eq_blocks {α κ} [BEq κ] [LawfulBEq κ] [DecidableEq κ] (key : α → κ) (ks : List κ) (hks : ks.Nodup) (l : List α)
    (hmem : ∀ a ∈ l, key a ∈ ks) (hs : l.Pairwise fun a b => ks.idxOf (key a) ≤ ks.idxOf (key b)) :
    l = ks.flatMap fun k => l.filter fun a => decide (key a = k) := by
  induction ks generalizing l with
  | nil =>
    cases l with
    | nil => rfl
    | cons a l => simpa using hmem a List.mem_cons_self
  | cons k ks ih =>
    rw [List.nodup_cons] at hks
    have e := eq_filter_append (fun a => decide (key a = k)) l (hs.imp (by
      intro a b hab hb
      simp only [decide_eq_true_eq] at hb ⊢
      rw [hb, List.idxOf_cons_self, Nat.le_zero] at hab
      by_contra hne
      rw [List.idxOf_cons_ne _ (fun h => hne h.symm)] at hab
      omega))
    have e2 := ih hks.2 (l.filter fun a => !decide (key a = k)) (by
      intro a ha
      rw [List.mem_filter] at ha
      have := hmem a ha.1
      simp only [List.mem_cons] at this
      rcases this with h | h
      · simp [h] at ha
      · exact h) (by
      refine List.Pairwise.imp_of_mem ?_ (hs.filter _)
      intro a b ha hb hab
      simp only [List.mem_filter, Bool.not_eq_true', decide_eq_false_iff_not] at ha hb
      rw [List.idxOf_cons_ne _ (fun h => ha.2 h.symm), List.idxOf_cons_ne _ (fun h => hb.2 h.symm)] at hab
      omega)
    rw [List.flatMap_cons]
    conv_lhs => rw [e, e2]
    congr 1
    refine List.flatMap_congr fun k' hk' => ?_
    rw [List.filter_filter]
    refine List.filter_congr fun a _ => ?_
    by_cases h : key a = k'
    · have : k' ≠ k := by rintro rfl; exact hks.1 hk'
      simp [h, this]
    · simp [h]

end Verif
