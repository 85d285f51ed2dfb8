import Verif.Proofs.GroupBy
import Verif.Proofs.DeepOps
import Verif.Props.Matching
import Verif.Spec.Schema
/-! the result of `to_deep_ahb` is accepted by the constructors, and nothing but section names can be missing in it -/

namespace Verif

/-- what is known about the items that are created -/
def DocItem.Sound (lines : List AhbLine) : DocItem → Prop
  | .group d _ _ => d ≠ none
  | .segment d _ _ sn sid => d ≠ none ∧ sid = none ∧ ∃ l ∈ lines, sn = l.sectionName
  | .dataElement de => ∃ ls stk, mergeLinesWithSameDataElement ls stk = .ok de

theorem DocItem.Sound.mono {ls ls' : List AhbLine} (h : ∀ l ∈ ls, l ∈ ls') : ∀ {x : DocItem}, x.Sound ls →
    x.Sound ls'
  | .group .., hx => hx
  | .segment .., hx => by
    obtain ⟨h1, h2, l, hl, h3⟩ := hx
    exact ⟨h1, h2, l, h l hl, h3⟩
  | .dataElement .., hx => hx

theorem created_sound {reader : MigLookup} {posStr used} {r : Run} : ∀ x ∈ r.created reader posStr used, x.Sound r.lines := by
  intro x hx
  unfold Run.created at hx
  split at hx
  · cases hx
  · split at hx
    · unfold Run.createdDataElement at hx
      split at hx
      · split at hx
        · rename_i de hde
          simp only [Option.toList_some, List.mem_singleton] at hx
          subst hx
          exact ⟨_, _, hde⟩
        · cases hx
      · cases hx
    · rcases List.mem_append.1 hx with hx | hx
      · unfold Run.openedGroup at hx
        split at hx
        · simp only [Option.toList_some, List.mem_singleton] at hx
          subst hx
          simp [DocItem.Sound]
        · cases hx
      · unfold Run.createdSegment at hx
        split at hx
        · rename_i e first _ hf
          simp only [Option.toList_some, List.mem_singleton] at hx
          subst hx
          exact ⟨by simp, rfl, first, List.mem_of_mem_head? hf, rfl⟩
        · cases hx

theorem createdItems_sound {reader : MigLookup} {posStr} (runs : List Run) : ∀ used, ∀ x ∈ createdItems reader posStr used runs,
    x.Sound (runs.flatMap Run.lines) := by
  induction runs with
  | nil => intro used x hx; cases hx
  | cons r runs ih =>
    intro used x hx
    rw [createdItems, List.mem_append] at hx
    rcases hx with hx | hx
    · exact (created_sound x hx).mono fun l hl => by simp [hl]
    · exact (ih _ x hx).mono fun l hl => by
        rw [List.flatMap_cons, List.mem_append]; exact .inr hl

theorem foldl_append_prefix {α : Type} (f : α → PyStr) (l : List α) (s : PyStr) : ∃ t, l.foldl (fun r a => r ++ f a) s = s ++ t := by
  induction l generalizing s with
  | nil => exact ⟨[], (List.append_nil _).symm⟩
  | cons a l ih =>
    obtain ⟨t, ht⟩ := ih (s ++ f a)
    exact ⟨f a ++ t, by rw [List.foldl_cons, ht, List.append_assoc]⟩

theorem toJsonPath_notBlank (s : EdifactStack) : NotBlank s.toJsonPath := by
  obtain ⟨t, ht⟩ := foldl_append_prefix EdifactStack.levelPath s.levels py!"$"
  unfold EdifactStack.toJsonPath
  rw [ht]
  exact ⟨'$', by simp, by decide⟩

theorem merge_constructed {ls : List AhbLine} {stk de} (h : mergeLinesWithSameDataElement ls stk = .ok de) :
    de.Constructed ∧ de.valueType ≠ none := by
  obtain ⟨_, first, rest, d, _, _, hd, hdisc, hid, hin, h1, h2⟩ := merge_ok h
  have hbase : DataElement.checkBase de.discriminator (some de.dataElementId) = .ok de.dataElementId := by
    unfold DataElement.checkBase
    rw [hid, hdisc]
    have hb : (stk.map EdifactStack.toJsonPath).isSome = true → isNotBlank (stk.map EdifactStack.toJsonPath) = true := by
      cases stk with
      | none => intro h; cases h
      | some s => exact fun _ => (notBlank_iff _).2 (toJsonPath_notBlank s)
    rw [if_neg]
    · dsimp only
      rw [if_neg]
      rw [Option.isNone_iff_eq_none]
      intro hn
      rw [hn] at hd
      cases hd
    · cases hs : (stk.map EdifactStack.toJsonPath).isSome with
      | false => simp
      | true => simp [hb hs]
  unfold DataElement.Constructed
  by_cases hv : first.valuePoolEntry = none
  · obtain ⟨ht, e, hk, _, hb⟩ := h2 hv
    refine ⟨?_, by rw [ht]; simp⟩
    rw [hk]
    simp only [DataElement.newFreeText, hbase, bind, Except.bind]
    rw [(notBlank_iff e).2 hb, Bool.not_true, if_neg (by simp)]
    show Except.ok _ = _
    congr 1
    rw [← hk]
  · obtain ⟨ht, es, hk, hes⟩ := h1 hv
    refine ⟨?_, by rw [ht]; simp⟩
    rw [hk]
    simp only [DataElement.newValuePool, hbase, bind, Except.bind]
    refine ⟨?_, fun x hx => ?_⟩
    · show Except.ok _ = _
      congr 1
      rw [← hk]
    · obtain ⟨l, _, _, _, _, hb, hq⟩ := forall₂_mem_right (mergeEntries_ok hes) x hx
      unfold ValuePoolEntry.Constructed ValuePoolEntry.new
      rw [hq, (notBlank_iff _).2 hb]
      rfl

/-- the result of `to_deep_ahb` is accepted by the constructors; nothing but section names can be missing, and every section name
is that of a line -/
theorem toDeepAhb_constructed {reader : MigLookup} {posStr flat sgh flat' deep}
    (h : toDeepAhb reader posStr flat sgh = .ok (flat', deep)) (hm : AhbMetaInformation.new flat.ahbMeta = .ok flat.ahbMeta) :
    deep.Constructed ∧ (deep.Complete ↔ ∀ s, SegmentOccurs deep.lines s → s.sectionName ≠ none) ∧
    ∀ s, SegmentOccurs deep.lines s → ∃ l ∈ flat.lines, s.sectionName = l.sectionName := by
  obtain ⟨located, hl, h2, h3, _, _⟩ := toDeepAhb_facts h
  have hlines : (runsOf located).flatMap Run.lines = flat.lines := by
    rw [runsOf_lines, (C09_locations_describe_lines sgh flat.lines located hl).1]
  have hs : ∀ x ∈ documentOrder deep.lines, x.Sound flat.lines := by
    rw [h2, ← hlines]
    exact createdItems_sound _ _
  have hg : ∀ g, GroupOccurs deep.lines g → g.header ∈ documentOrder deep.lines := fun g hg =>
    (mem_documentOrder_iff _ _).2 ⟨g, hg, .inl rfl⟩
  have hseg : ∀ s, SegmentOccurs deep.lines s → s.header ∈ documentOrder deep.lines := fun s ⟨g, hg, hs⟩ =>
    (mem_documentOrder_iff _ _).2 ⟨g, hg, .inr ⟨s, hs, by simp [Segment.docItems]⟩⟩
  have hde : ∀ de, DataElementOccurs deep.lines de → DocItem.dataElement de ∈ documentOrder deep.lines := fun de hde =>
    (mem_documentOrder_dataElement _ _).2 hde
  have hmerge : ∀ de, DataElementOccurs deep.lines de → de.Constructed ∧ de.valueType ≠ none := fun de h => by
    obtain ⟨ls, stk, hm⟩ := hs _ (hde de h)
    exact merge_constructed hm
  refine ⟨⟨?_, fun g h => ?_, fun s h => ?_, fun de h => (hmerge de h).1⟩, ⟨fun hc s h => (hc.segments s h).2, fun hn =>
    ⟨fun g h => hs _ (hg g h), fun s h => ⟨(hs _ (hseg s h)).1, hn s h⟩, fun de h => (hmerge de h).2⟩⟩, fun s h => (hs _ (hseg s h)).2.2⟩
  · obtain ⟨located, st, _, _, hres⟩ := toDeepAhb_ok h
    cases hres
    unfold AhbMetaInformation.new at hm ⊢
    dsimp only at hm ⊢
    split at hm
    · cases hm
    · rename_i h1
      split at hm
      · cases hm
      · rename_i h2
        rw [if_neg h1, if_neg h2]
  · have hb : NotBlank g.ahbExpression := h3 _ (hg g h)
    unfold SegmentGroup.Constructed SegmentGroup.new checkSegmentLevelExpression
    simp only [(notBlank_iff _).2 hb]
    cases g
    rfl
  · have hb : NotBlank s.ahbExpression := h3 _ (hseg s h)
    have hid : s.segmentId = none := (hs _ (hseg s h)).2.1
    unfold Segment.Constructed Segment.new checkSegmentLevelExpression
    simp only [(notBlank_iff _).2 hb, hid]
    cases s
    cases hid
    rfl

end Verif
