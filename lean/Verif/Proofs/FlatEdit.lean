import Verif.Proofs.FlatSort
import Verif.Spec.FlatEdit
import Verif.Props.Flat
import Verif.Props.Constructors
/-! lemmas for flat AHBs that are edited in place -/

namespace Verif
open List

theorem lineAttr_check_iff (a : LineAttr) : a.check = true ↔ a.Allowed := by
  cases a with
  | ahbExpression v => cases v <;> simp [LineAttr.check, LineAttr.Allowed, NoneOr, notBlank_iff]
  | index v => cases v <;> simp [LineAttr.check, LineAttr.Allowed, NoneOr]
  | _ => simp [LineAttr.check, LineAttr.Allowed]

theorem lineAttr_set_sound (a : LineAttr) (l : AhbLine) (hl : l.Sound) (ha : a.Allowed) : (a.set l).Sound := by
  cases a <;> first | exact hl | exact ⟨ha, hl.2⟩ | exact ⟨hl.1, ha⟩

theorem splitWhen_mapped {α β : Type} (p : β → β → Bool) (f : α → β) (l : List α) :
    splitWhen p (l.map f) = (splitWhen (fun a b => p (f a) (f b)) l).map (List.map f) := by
  induction l with
  | nil => simp [splitWhen]
  | cons x l ih =>
    cases l with
    | nil => simp [splitWhen]
    | cons y l =>
      simp only [List.map_cons] at ih ⊢
      rw [splitWhen, splitWhen, ih]
      split
      · rfl
      · cases splitWhen (fun a b => p (f a) (f b)) (y :: l) <;> rfl

/-- the handbook looks at four attributes of a line -/
theorem checkLines_congr (h h' : Nat → AhbLine) (refs : List Nat)
    (hs : ∀ i, (h i).segmentGroupKey = (h' i).segmentGroupKey ∧ (h i).segmentCode = (h' i).segmentCode ∧
      (h i).dataElement = (h' i).dataElement ∧ (h i).sectionName = (h' i).sectionName) :
    FlatAhb.checkLines (refs.map h) = FlatAhb.checkLines (refs.map h') := by
  have h1 : checkNearlyAllHaveSg (refs.map h) = checkNearlyAllHaveSg (refs.map h') := by
    unfold checkNearlyAllHaveSg removeGroupedContaining
    simp only [splitWhen_mapped]
    have e1 : (fun a b => noSgToSg (h a) (h b)) = fun a b => noSgToSg (h' a) (h' b) := by
      funext a b
      simp only [noSgToSg, (hs a).1, (hs b).1]
    have e2 : (fun g : List AhbLine => g.any fun l => l.sectionName == some controlSection) ∘ List.map h =
        (fun g : List AhbLine => g.any fun l => l.sectionName == some controlSection) ∘ List.map h' := by
      funext g
      simp only [Function.comp_apply, List.any_map]
      congr 1
      funext i
      simp only [Function.comp_apply, (hs i).2.2.2]
    rw [List.filter_map, List.filter_map, List.length_map, List.length_map, e1, e2]
  have h2 : (refs.map h).all AhbLine.flatOk = (refs.map h').all AhbLine.flatOk := by
    rw [List.all_map, List.all_map]
    congr 1
    funext i
    simp only [Function.comp_apply, AhbLine.flatOk, (hs i).1, (hs i).2.1, (hs i).2.2.1]
  unfold FlatAhb.checkLines
  rw [h1, h2]

theorem checkLines_error {lines : List AhbLine} {e : Exc} (h : FlatAhb.checkLines lines = .error e) : e = .valueError := by
  unfold FlatAhb.checkLines at h
  split at h
  · cases h; rfl
  · split at h
    · cases h; rfl
    · cases h

theorem checkLines_acceptable (lines : List AhbLine) : FlatAhb.checkLines lines = .ok () ↔ AcceptableLines lines := by
  rw [checkLines_iff]
  unfold AcceptableLines
  refine and_congr_right fun _ => ?_
  have : checkNearlyAllHaveSg lines = true ↔ controlPieces (splitWhen noSgToSg lines) ≤ 2 := by
    unfold checkNearlyAllHaveSg
    simp only [controlPieces_eq]
    simp
  rw [this]
  constructor
  · exact fun h => ⟨_, (cutBeforeGroups_iff _ _).2 rfl, h⟩
  · rintro ⟨p, hp, h⟩
    rwa [(cutBeforeGroups_iff _ _).1 hp]

theorem sgKey_trans (a b c : AhbLine) : decide (sgKeyOrEmpty a ≤ sgKeyOrEmpty b) = true →
    decide (sgKeyOrEmpty b ≤ sgKeyOrEmpty c) = true → decide (sgKeyOrEmpty a ≤ sgKeyOrEmpty c) = true := by
  simp only [decide_eq_true_eq]
  intro h1 h2
  exact List.le_trans h1 h2

theorem sgKey_total (a b : AhbLine) : (decide (sgKeyOrEmpty a ≤ sgKeyOrEmpty b) ||
    decide (sgKeyOrEmpty b ≤ sgKeyOrEmpty a)) = true := by
  simp only [Bool.or_eq_true, decide_eq_true_eq]
  exact pyStr_le_total _ _

/-- sorting references is sorting the lines -/
theorem sortedRefs_map (line : Nat → AhbLine) (refs : List Nat) (ks : List (Option PyStr)) :
    (sortedRefsBySegmentGroups line refs ks).map (List.map line) = sortedLinesBySegmentGroups (refs.map line) ks := by
  unfold sortedRefsBySegmentGroups sortedLinesBySegmentGroups
  simp only
  have e1 : (refs.mergeSort fun a b => decide (sgKeyOrEmpty (line a) ≤ sgKeyOrEmpty (line b))).map line =
      (refs.map line).mergeSort fun a b => decide (sgKeyOrEmpty a ≤ sgKeyOrEmpty b) :=
    List.map_mergeSort fun a _ b _ => rfl
  rw [← e1, List.all_map]
  simp only [Function.comp_def]
  split
  · simp only [Except.map]
    congr 1
    exact List.map_mergeSort fun a _ b _ => rfl
  · rfl

theorem sortedRefs_ok (line : Nat → AhbLine) (refs : List Nat) (ks : List (Option PyStr)) {out : List Nat}
    (h : sortedRefsBySegmentGroups line refs ks = .ok out) :
    out.Perm refs ∧ ∀ k, out.filter (fun r => decide ((line r).segmentGroupKey = k)) =
      refs.filter (fun r => decide ((line r).segmentGroupKey = k)) := by
  unfold sortedRefsBySegmentGroups at h
  simp only at h
  split at h
  · simp only [Except.ok.injEq] at h
    subst h
    refine ⟨(List.mergeSort_perm _ _).trans (List.mergeSort_perm _ _), fun k => ?_⟩
    rw [filter_mergeSort, filter_mergeSort]
    · exact fun a b c => sgKey_trans _ _ _
    · exact fun a b => sgKey_total _ _
    · intro a b ha hb
      simp only [decide_eq_true_eq] at ha hb ⊢
      rw [sgKeyOrEmpty_congr (ha.trans hb.symm)]
      exact List.le_refl _
    · simp only [decide_eq_true_eq]; intros; omega
    · intro a b; simp only [Bool.or_eq_true, decide_eq_true_eq]; omega
    · intro a b ha hb
      simp only [decide_eq_true_eq] at ha hb ⊢
      rw [ha, hb]
      exact Nat.le_refl _
  · cases h

theorem contiguous_map {α β κ : Type} (key : β → κ) (f : α → β) (l : List α) (h : Contiguous key (l.map f)) :
    Contiguous (fun a => key (f a)) l := by
  intro i j m a b c hij hjm ha hb hc hk
  exact h i j m (f a) (f b) (f c) hij hjm (by simp [ha]) (by simp [hb]) (by simp [hc]) hk

end Verif
