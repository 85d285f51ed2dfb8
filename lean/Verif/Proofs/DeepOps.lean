import Verif.Spec.DeepOps
import Verif.Model.Deep
import Verif.Proofs.DeepAddr
import Verif.Proofs.FlatSort
/-! lemmas about the operations on deep AHBs -/

namespace Verif
open SegmentGroup

/-! ## unfolding along `children` -/

theorem findSegmentsList_eq (p : Segment → Bool) (r : Bool) (l : List SegmentGroup) :
    findSegmentsList p r l = l.flatMap (SegmentGroup.findSegments p r) := by
  induction l with
  | nil => simp [findSegmentsList]
  | cons g l ih => simp [findSegmentsList, ih]

theorem findSegments_true (p : Segment → Bool) (g : SegmentGroup) :
    g.findSegments p true = g.ownSegments.filter p ++ g.children.flatMap (SegmentGroup.findSegments p true) := by
  cases g with
  | mk d e i s gs =>
    cases s <;> cases gs <;> simp [SegmentGroup.findSegments, findSegmentsOpt, ownSegments, children, segments,
      segmentGroups, findSegmentsList_eq]

theorem findSegments_false (p : Segment → Bool) (g : SegmentGroup) :
    g.findSegments p false = g.ownSegments.filter p := by
  cases g with
  | mk d e i s gs => cases s <;> simp [SegmentGroup.findSegments, ownSegments, segments]

theorem segmentsInOrder_eq (g : SegmentGroup) :
    g.segmentsInOrder = g.ownSegments ++ g.children.flatMap SegmentGroup.segmentsInOrder := by
  unfold SegmentGroup.segmentsInOrder
  rw [addresses_eq, List.flatMap_cons, at?_nil]
  simp only
  congr 1
  rw [groupAddresses_eq, List.flatMap_assoc]
  symm
  apply zipIdx_flatMap_congr
  intro i c hc
  simp only [List.flatMap_map]
  refine List.flatMap_congr fun a _ => ?_
  rw [at?_cons]
  simp [groupAt?, hc]

theorem findSegments_inOrder (p : Segment → Bool) (g : SegmentGroup) :
    g.findSegments p true = g.segmentsInOrder.filter p := by
  induction g using SegmentGroup.induct with
  | h g ih =>
    rw [findSegments_true, segmentsInOrder_eq, List.filter_append, List.filter_flatMap]
    congr 1
    exact List.flatMap_congr fun c hc => ih c hc

theorem queryList_eq (p : SegmentGroup → Bool) (l : List SegmentGroup) :
    queryList p l = l.flatMap (SegmentGroup.query p) := by
  induction l with
  | nil => simp [queryList]
  | cons g l ih => simp [queryList, ih]

theorem query_eq (p : SegmentGroup → Bool) (g : SegmentGroup) :
    g.query p = (if p g then [g] else []) ++ g.children.flatMap (SegmentGroup.query p) := by
  cases g with
  | mk d e i s gs => cases gs <;> simp [SegmentGroup.query, queryOpt, children, segmentGroups, queryList_eq]

theorem mem_query (p : SegmentGroup → Bool) (g : SegmentGroup) : ∀ h,
    h ∈ g.query p ↔ p h = true ∧ ∃ a, g.at? a = some h := by
  induction g using SegmentGroup.induct with
  | h g ih =>
    intro h
    rw [query_eq, List.mem_append, List.mem_flatMap]
    constructor
    · rintro (h1 | ⟨c, hc, h1⟩)
      · split at h1
        · rename_i hp
          simp only [List.mem_singleton] at h1
          subst h1
          exact ⟨hp, [], at?_nil _⟩
        · simp at h1
      · obtain ⟨hp, a, ha⟩ := (ih c hc h).1 h1
        obtain ⟨i, hi⟩ := List.getElem?_of_mem hc
        exact ⟨hp, i :: a, by rw [at?_cons]; simp [groupAt?, hi, ha]⟩
    · rintro ⟨hp, a, ha⟩
      cases a with
      | nil =>
        rw [at?_nil] at ha
        cases ha
        left
        rw [if_pos hp]; simp
      | cons i a =>
        right
        rw [at?_cons] at ha
        simp only [groupAt?] at ha
        cases hc : g.children[i]? with
        | none => rw [hc] at ha; cases ha
        | some c =>
          rw [hc] at ha
          have hm := List.mem_of_getElem? hc
          exact ⟨c, hm, (ih c hm h).2 ⟨hp, a, ha⟩⟩

theorem mem_flatMap_query (p : SegmentGroup → Bool) (l : List SegmentGroup) (h : SegmentGroup) :
    h ∈ l.flatMap (SegmentGroup.query p) ↔ p h = true ∧ GroupOccurs l h := by
  rw [List.mem_flatMap]
  constructor
  · rintro ⟨g, hg, hq⟩
    obtain ⟨hp, a, ha⟩ := (mem_query p g h).1 hq
    obtain ⟨i, hi⟩ := List.getElem?_of_mem hg
    exact ⟨hp, i :: a, by simp [groupAt?, hi, ha]⟩
  · rintro ⟨hp, a, ha⟩
    cases a with
    | nil => cases ha
    | cons i a =>
      simp only [groupAt?] at ha
      cases hc : l[i]? with
      | none => rw [hc] at ha; cases ha
      | some c =>
        rw [hc] at ha
        exact ⟨c, List.mem_of_getElem? hc, (mem_query p c h).2 ⟨hp, a, ha⟩⟩

/-! ## appendNew -/

theorem mem_appendNew {α} [DecidableEq α] (r xs : List α) (x : α) : x ∈ appendNew r xs ↔ x ∈ r ∨ x ∈ xs := by
  induction xs generalizing r with
  | nil => simp [appendNew]
  | cons y xs ih =>
    have : appendNew r (y :: xs) = appendNew (if y ∈ r then r else r ++ [y]) xs := rfl
    rw [this, ih]
    split
    · rename_i h
      simp only [List.mem_cons]
      constructor
      · rintro (h | h)
        · exact .inl h
        · exact .inr (.inr h)
      · rintro (h | rfl | h)
        · exact .inl h
        · exact .inl ‹_›
        · exact .inr h
    · simp only [List.mem_append, List.mem_cons, or_assoc, List.not_mem_nil, false_or]

theorem nodup_appendNew {α} [DecidableEq α] (r xs : List α) (hr : r.Nodup) : (appendNew r xs).Nodup := by
  induction xs generalizing r with
  | nil => simpa [appendNew] using hr
  | cons y xs ih =>
    have : appendNew r (y :: xs) = appendNew (if y ∈ r then r else r ++ [y]) xs := rfl
    rw [this]
    apply ih
    split
    · exact hr
    · rename_i h
      rw [List.nodup_append]
      refine ⟨hr, by simp, ?_⟩
      intro a ha b hb
      simp only [List.mem_singleton] at hb
      subst hb
      rintro rfl; exact h ha

/-! ## finding groups and segments -/

theorem foldl_append_flatMap {α β : Type} (f : α → List β) (l : List α) (r : List β) :
    l.foldl (fun r x => r ++ f x) r = r ++ l.flatMap f := by
  induction l generalizing r with
  | nil => simp
  | cons x l ih => simp [ih, List.append_assoc]

theorem mem_findStep (p : SegmentGroup → Bool) (r : List SegmentGroup) (line h : SegmentGroup) :
    h ∈ findSegmentGroupsStep p r line ↔ h ∈ r ∨ h ∈ line.query p := by
  unfold findSegmentGroupsStep
  simp only
  rw [mem_appendNew]
  cases hs : line.segmentGroups with
  | none => simp
  | some gs =>
    simp only
    rw [foldl_append_flatMap, List.mem_append, query_eq, List.mem_append]
    have hc : line.children = gs := by simp [children, hs]
    rw [hc]
    tauto

theorem mem_findSegmentGroups (p : SegmentGroup → Bool) (a : DeepAhb) (h : SegmentGroup) :
    h ∈ a.findSegmentGroups p ↔ p h = true ∧ GroupOccurs a.lines h := by
  rw [← mem_flatMap_query]
  have key : ∀ (l r : List SegmentGroup),
      h ∈ l.foldl (findSegmentGroupsStep p) r ↔ h ∈ r ∨ h ∈ l.flatMap (SegmentGroup.query p) := by
    intro l
    induction l with
    | nil => simp
    | cons g l ih =>
      intro r
      rw [List.foldl_cons, ih, mem_findStep, List.flatMap_cons, List.mem_append, or_assoc]
  have := key a.lines []
  simpa [DeepAhb.findSegmentGroups] using this

theorem mem_segmentsInOrder (g : SegmentGroup) (s : Segment) :
    s ∈ g.segmentsInOrder ↔ ∃ a h, g.at? a = some h ∧ s ∈ h.ownSegments := by
  unfold SegmentGroup.segmentsInOrder
  rw [List.mem_flatMap]
  constructor
  · rintro ⟨a, _, h⟩
    cases hg : g.at? a with
    | none => rw [hg] at h; simp at h
    | some x => rw [hg] at h; exact ⟨a, x, hg, h⟩
  · rintro ⟨a, h, ha, hs⟩
    exact ⟨a, (mem_addresses g a).2 (by simp [ha]), by rw [ha]; exact hs⟩

theorem at?_append (g h : SegmentGroup) (a b : List Nat) (ha : g.at? a = some h) : g.at? (a ++ b) = h.at? b := by
  induction a generalizing g with
  | nil => rw [at?_nil] at ha; cases ha; simp
  | cons i a ih =>
    rw [at?_cons] at ha
    rw [List.cons_append, at?_cons]
    simp only [groupAt?] at ha ⊢
    cases hc : g.children[i]? with
    | none => rw [hc] at ha; cases ha
    | some c => rw [hc] at ha; simpa using ih c ha

theorem groupAt?_append {l : List SegmentGroup} {h : SegmentGroup} {a : List Nat} (b : List Nat)
    (ha : groupAt? l a = some h) : groupAt? l (a ++ b) = h.at? b := by
  cases a with
  | nil => cases ha
  | cons i a =>
    rw [List.cons_append]
    simp only [groupAt?] at ha ⊢
    cases hc : l[i]? with
    | none => rw [hc] at ha; cases ha
    | some c => rw [hc] at ha; simpa using at?_append c h a b ha

theorem groupOccurs_line {l : List SegmentGroup} {g : SegmentGroup} (h : g ∈ l) : GroupOccurs l g := by
  obtain ⟨i, hi⟩ := List.getElem?_of_mem h
  exact ⟨[i], by simp [groupAt?, hi, at?_nil]⟩

theorem mem_deepFindSegments (gp : SegmentGroup → Bool) (sp : Segment → Bool) (a : DeepAhb) (s : Segment) :
    s ∈ a.findSegments gp sp ↔ sp s = true ∧
      ((∃ g, GroupOccurs a.lines g ∧ gp g = true ∧ s ∈ g.segmentsInOrder) ∨ ∃ line ∈ a.lines, s ∈ line.ownSegments) := by
  unfold DeepAhb.findSegments
  simp only
  rw [List.mem_append, List.mem_flatMap, List.mem_flatMap]
  constructor
  · rintro (⟨g, hg, hs⟩ | ⟨line, hl, hs⟩)
    · rw [mem_findSegmentGroups] at hg
      rw [findSegments_inOrder, List.mem_filter] at hs
      exact ⟨hs.2, .inl ⟨g, hg.2, hg.1, hs.1⟩⟩
    · cases hx : line.segments with
      | none => rw [hx] at hs; simp at hs
      | some l =>
        rw [hx] at hs
        simp only [List.mem_filter] at hs
        exact ⟨hs.2, .inr ⟨line, hl, by simp [ownSegments, hx, hs.1]⟩⟩
  · rintro ⟨hp, ⟨g, ho, hg, hs⟩ | ⟨line, hl, hs⟩⟩
    · refine .inl ⟨g, (mem_findSegmentGroups _ _ _).2 ⟨hg, ho⟩, ?_⟩
      rw [findSegments_inOrder, List.mem_filter]
      exact ⟨hs, hp⟩
    · refine .inr ⟨line, hl, ?_⟩
      cases hx : line.segments with
      | none => simp [ownSegments, hx] at hs
      | some l =>
        simp only [List.mem_filter]
        exact ⟨by simpa [ownSegments, hx] using hs, hp⟩

theorem mem_allSegments (a : DeepAhb) (s : Segment) :
    s ∈ a.findSegments (fun _ => true) (fun _ => true) ↔ SegmentOccurs a.lines s := by
  rw [mem_deepFindSegments]
  simp only [true_and]
  constructor
  · rintro (⟨g, ⟨x, hx⟩, hs⟩ | ⟨line, hl, hs⟩)
    · obtain ⟨b, h, hb, hs⟩ := (mem_segmentsInOrder g s).1 hs
      exact ⟨h, ⟨x ++ b, by rw [groupAt?_append b hx, hb]⟩, hs⟩
    · exact ⟨line, groupOccurs_line hl, hs⟩
  · rintro ⟨g, hg, hs⟩
    exact .inl ⟨g, hg, (mem_segmentsInOrder g s).2 ⟨[], g, at?_nil g, hs⟩⟩

theorem mem_allGroups (a : DeepAhb) (g : SegmentGroup) :
    g ∈ a.findSegmentGroups (fun _ => true) ↔ GroupOccurs a.lines g := by
  rw [mem_findSegmentGroups]; simp

theorem mem_documentOrder_iff (l : List SegmentGroup) (x : DocItem) : x ∈ documentOrder l ↔
    ∃ g, GroupOccurs l g ∧ (x = g.header ∨ ∃ s ∈ g.ownSegments, x ∈ s.docItems) := by
  constructor
  · intro h
    simp only [documentOrder, List.mem_flatMap] at h
    obtain ⟨g, hg, hx⟩ := h
    obtain ⟨a, h, ha, hh⟩ := (mem_docItems_iff g x).1 hx
    obtain ⟨i, hi⟩ := List.getElem?_of_mem hg
    exact ⟨h, ⟨i :: a, by simp [groupAt?, hi, ha]⟩, hh⟩
  · rintro ⟨g, ⟨a, ha⟩, hh⟩
    exact mem_documentOrder ha x ((mem_docItems_iff g x).2 ⟨[], g, at?_nil g, hh⟩)

theorem mem_documentOrder_dataElement (l : List SegmentGroup) (de : DataElement) :
    DocItem.dataElement de ∈ documentOrder l ↔ DataElementOccurs l de := by
  rw [mem_documentOrder_iff]
  constructor
  · rintro ⟨g, hg, h | ⟨s, hs, h⟩⟩
    · simp [SegmentGroup.header] at h
    · simp only [Segment.docItems, Segment.header, List.mem_cons, List.mem_map, reduceCtorEq, false_or,
        DocItem.dataElement.injEq, exists_eq_right] at h
      exact ⟨s, ⟨g, hg, hs⟩, h⟩
  · rintro ⟨s, ⟨g, hg, hs⟩, h⟩
    refine ⟨g, hg, .inr ⟨s, hs, ?_⟩⟩
    simp [Segment.docItems, Segment.header, h]

/-! ## value pools -/

structure ValuePoolAcc.Inv (acc : ValuePoolAcc) : Prop where
  added : ∀ d, d ∈ acc.added ↔ d ∈ acc.result.map DataElement.discriminator
  nodup : (acc.result.map DataElement.discriminator).Nodup

theorem addToResult_spec {acc : ValuePoolAcc} (h : acc.Inv) (x : DataElement) :
    (addToResult acc x).Inv ∧
    (∀ y, y ∈ (addToResult acc x).result → y ∈ acc.result ∨ y = x) ∧
    (∀ y ∈ acc.result, y ∈ (addToResult acc x).result) ∧
    x.discriminator ∈ (addToResult acc x).result.map DataElement.discriminator := by
  unfold addToResult
  split
  · rename_i hd
    exact ⟨h, fun y hy => .inl hy, fun y hy => hy, (h.added _).1 hd⟩
  · rename_i hd
    have hnr : x ∉ acc.result := fun hx => hd ((h.added _).2 (List.mem_map_of_mem hx))
    rw [if_pos hnr]
    refine ⟨⟨?_, ?_⟩, ?_, ?_, ?_⟩
    · intro d
      simp only [List.mem_cons, List.map_append, List.map_cons, List.map_nil, List.mem_append, h.added,
        List.not_mem_nil, or_false]
      exact or_comm
    · simp only [List.map_append, List.map_cons, List.map_nil]
      rw [List.nodup_append]
      refine ⟨h.nodup, by simp, ?_⟩
      intro a ha b hb
      simp only [List.mem_singleton] at hb
      subst hb
      rintro rfl
      exact hd ((h.added _).2 ha)
    · intro y hy
      simpa using hy
    · intro y hy
      simp [hy]
    · simp

theorem addToResult_foldl {acc : ValuePoolAcc} (h : acc.Inv) (xs : List DataElement) :
    (xs.foldl addToResult acc).Inv ∧
    (∀ y, y ∈ (xs.foldl addToResult acc).result → y ∈ acc.result ∨ y ∈ xs) ∧
    (∀ y ∈ acc.result, y ∈ (xs.foldl addToResult acc).result) ∧
    (∀ x ∈ xs, x.discriminator ∈ (xs.foldl addToResult acc).result.map DataElement.discriminator) := by
  induction xs generalizing acc with
  | nil => exact ⟨h, fun y hy => .inl hy, fun y hy => hy, by simp⟩
  | cons x xs ih =>
    obtain ⟨a1, a2, a3, a4⟩ := addToResult_spec h x
    obtain ⟨b1, b2, b3, b4⟩ := ih a1
    refine ⟨b1, ?_, ?_, ?_⟩
    · intro y hy
      rcases b2 y hy with h | h
      · rcases a2 y h with h | rfl
        · exact .inl h
        · exact .inr List.mem_cons_self
      · exact .inr (List.mem_cons_of_mem _ h)
    · exact fun y hy => b3 y (a3 y hy)
    · intro z hz
      rw [List.mem_cons] at hz
      rcases hz with rfl | hz
      · rw [List.mem_map] at a4 ⊢
        obtain ⟨y, hy, he⟩ := a4
        exact ⟨y, b3 y hy, he⟩
      · exact b4 z hz

theorem foldl_foldl_flatMap {α β γ : Type} (f : γ → β → γ) (g : α → List β) (l : List α) (c : γ) :
    l.foldl (fun c x => (g x).foldl f c) c = (l.flatMap g).foldl f c := by
  induction l generalizing c with
  | nil => rfl
  | cons x l ih => simp [ih]

/-! ## expressions -/

theorem le_trans_pyStr : ∀ a b c : PyStr, decide (a ≤ b) = true → decide (b ≤ c) = true → decide (a ≤ c) = true := by
  simp only [decide_eq_true_eq]
  intro a b c h1 h2
  exact List.le_trans h1 h2

theorem le_total_pyStr : ∀ a b : PyStr, (decide (a ≤ b) || decide (b ≤ a)) = true := by
  intro a b
  simp only [Bool.or_eq_true, decide_eq_true_eq]
  exact pyStr_le_total a b

theorem mem_sortedSet (xs : List PyStr) (x : PyStr) : x ∈ sortedSet xs ↔ x ∈ xs := by
  unfold sortedSet
  rw [List.mem_mergeSort, mem_appendNew]; simp

theorem sortedSet_ascending (xs : List PyStr) : (sortedSet xs).Pairwise (· < ·) := by
  unfold sortedSet
  have h1 := List.pairwise_mergeSort le_trans_pyStr le_total_pyStr (appendNew [] xs)
  have h2 : ((appendNew [] xs).mergeSort fun a b => decide (a ≤ b)).Nodup :=
    (List.mergeSort_perm _ _).nodup_iff.2 (nodup_appendNew [] xs List.nodup_nil)
  refine (h1.and h2).imp ?_
  intro a b ⟨hle, hne⟩
  simp only [decide_eq_true_eq] at hle
  by_contra hlt
  exact hne (List.le_antisymm hle hlt)

/-! ## resetting -/

theorem resetList_eq (l : List SegmentGroup) : resetList l = l.map SegmentGroup.resetAhbLineIndex := by
  induction l with
  | nil => rfl
  | cons g l ih => simp [resetList, ih]

theorem children_reset (g : SegmentGroup) : g.resetAhbLineIndex.children = g.children.map SegmentGroup.resetAhbLineIndex := by
  cases g with
  | mk d e i s gs => cases gs <;> simp [SegmentGroup.resetAhbLineIndex, resetOpt, children, segmentGroups, resetList_eq]

theorem ownSegments_reset (g : SegmentGroup) : g.resetAhbLineIndex.ownSegments = g.ownSegments.map Segment.resetAhbLineIndex := by
  cases g with
  | mk d e i s gs => cases s <;> simp [SegmentGroup.resetAhbLineIndex, ownSegments, segments]

theorem header_reset (g : SegmentGroup) : g.resetAhbLineIndex.header = .group g.discriminator g.ahbExpression none := by
  cases g with
  | mk d e i s gs => simp [SegmentGroup.resetAhbLineIndex, SegmentGroup.header, discriminator, ahbExpression, ahbLineIndex]

theorem segment_reset_inj (a b : Segment) : a.resetAhbLineIndex = b.resetAhbLineIndex ↔ a.SameButIndex b := by
  cases a; cases b
  simp [Segment.resetAhbLineIndex, Segment.SameButIndex]

theorem map_eq_map_iff {α β : Type} (f : α → β) (a b : List α) : a.map f = b.map f ↔
    a.length = b.length ∧ ∀ (i : Nat) (x y : α), a[i]? = some x → b[i]? = some y → f x = f y := by
  constructor
  · intro h
    have hl : a.length = b.length := by simpa using congrArg List.length h
    refine ⟨hl, fun i x y hx hy => ?_⟩
    have := congrArg (fun l => l[i]?) h
    simpa [hx, hy] using this
  · rintro ⟨hl, h⟩
    apply List.ext_getElem?
    intro i
    simp only [List.getElem?_map]
    cases hx : a[i]? with
    | none =>
      have : b[i]? = none := by rw [List.getElem?_eq_none_iff] at hx ⊢; omega
      simp [this]
    | some x =>
      cases hy : b[i]? with
      | none => rw [List.getElem?_eq_none_iff] at hy; have := (List.getElem?_eq_some_iff.1 hx).1; omega
      | some y => simp [h i x y hx hy]

theorem segments_reset_inj (s s' : Option (List Segment)) :
    s.map (List.map Segment.resetAhbLineIndex) = s'.map (List.map Segment.resetAhbLineIndex) ↔
      SameOptList Segment.SameButIndex s s' := by
  cases s <;> cases s' <;> simp [SameOptList, map_eq_map_iff, segment_reset_inj]

mutual
theorem reset_inj : ∀ a b : SegmentGroup, a.resetAhbLineIndex = b.resetAhbLineIndex ↔ SegmentGroup.SameButIndex a b
  | .mk d e i s gs, .mk d' e' i' s' gs' => by
    simp only [SegmentGroup.resetAhbLineIndex, SegmentGroup.SameButIndex, SegmentGroup.mk.injEq, true_and,
      segments_reset_inj, resetOpt_inj gs gs']
theorem resetOpt_inj : ∀ a b : Option (List SegmentGroup), resetOpt a = resetOpt b ↔ SameButIndexOpt a b
  | none, none => by simp [resetOpt, SameButIndexOpt]
  | none, some _ => by simp [resetOpt, SameButIndexOpt]
  | some _, none => by simp [resetOpt, SameButIndexOpt]
  | some a, some b => by simp [resetOpt, SameButIndexOpt, resetList_inj a b]
theorem resetList_inj : ∀ a b : List SegmentGroup, resetList a = resetList b ↔ SameButIndexList a b
  | [], [] => by simp [resetList, SameButIndexList]
  | [], _ :: _ => by simp [resetList, SameButIndexList]
  | _ :: _, [] => by simp [resetList, SameButIndexList]
  | a :: as, b :: bs => by simp [resetList, SameButIndexList, reset_inj a b, resetList_inj as bs]
end

theorem segment_reset_idem (s : Segment) : s.resetAhbLineIndex.resetAhbLineIndex = s.resetAhbLineIndex := rfl

mutual
theorem reset_idem : ∀ a : SegmentGroup, a.resetAhbLineIndex.resetAhbLineIndex = a.resetAhbLineIndex
  | .mk d e i s gs => by
    simp only [SegmentGroup.resetAhbLineIndex, resetOpt_idem gs]
    cases s <;> simp [Function.comp_def, segment_reset_idem]
theorem resetOpt_idem : ∀ a : Option (List SegmentGroup), resetOpt (resetOpt a) = resetOpt a
  | none => rfl
  | some a => by simp [resetOpt, resetList_idem a]
theorem resetList_idem : ∀ a : List SegmentGroup, resetList (resetList a) = resetList a
  | [] => rfl
  | a :: as => by simp [resetList, reset_idem a, resetList_idem as]
end

theorem reset_items (g : SegmentGroup) : ∀ x ∈ g.resetAhbLineIndex.docItems, ∀ i, x.lineIndex = some i → i = none := by
  induction g using SegmentGroup.induct with
  | h g ih =>
    intro x hx
    rw [docItems_eq, header_reset, ownSegments_reset, children_reset] at hx
    simp only [List.mem_cons, List.mem_append, List.mem_flatMap, List.mem_map, documentOrder] at hx
    rcases hx with rfl | ⟨s, ⟨s', _, rfl⟩, hx⟩ | ⟨c, ⟨c', hc, rfl⟩, hx⟩
    · simp [DocItem.lineIndex]
    · simp only [Segment.docItems, List.mem_cons, List.mem_map] at hx
      rcases hx with rfl | ⟨de, _, rfl⟩
      · simp [DocItem.lineIndex, Segment.header, Segment.resetAhbLineIndex]
      · simp [DocItem.lineIndex]
    · exact ih c' hc x hx

/-! ## replacing inputs -/

/-- the action returns `res` and makes the calls `calls` -/
def Logs {α : Type} (act : StateM (List PyStr) α) (res : α) (calls : List PyStr) : Prop :=
  ∀ log, act.run log = (res, log ++ calls)

theorem Logs.pure {α : Type} (x : α) : Logs (Pure.pure x) x [] := by
  intro log; rw [List.append_nil]; rfl

theorem Logs.congr {α : Type} {a : StateM (List PyStr) α} {x : α} {c c'} (h : Logs a x c) (hc : c = c') :
    Logs a x c' := hc ▸ h

theorem perm_flatMap {α β : Type} {f g : α → List β} (l : List α) (h : ∀ x ∈ l, (f x).Perm (g x)) :
    (l.flatMap f).Perm (l.flatMap g) := by
  induction l with
  | nil => simp
  | cons x l ih =>
    simp only [List.flatMap_cons]
    exact (h x List.mem_cons_self).append (ih fun y hy => h y (List.mem_cons_of_mem _ hy))

theorem Logs.bind {α β : Type} {a : StateM (List PyStr) α} {f : α → StateM (List PyStr) β} {x y cx cy}
    (h1 : Logs a x cx) (h2 : Logs (f x) y cy) : Logs (a >>= f) y (cx ++ cy) := by
  intro log
  have e : (a >>= f).run log = (f (a.run log).1).run (a.run log).2 := rfl
  rw [e, h1 log]
  simp only
  rw [h2, List.append_assoc]

theorem Logs.mapM {α β : Type} {f : α → StateM (List PyStr) β} {g : α → β} {c : α → List PyStr}
    (h : ∀ x, Logs (f x) (g x) (c x)) (l : List α) : Logs (l.mapM f) (l.map g) (l.flatMap c) := by
  induction l with
  | nil => simpa using Logs.pure ([] : List β)
  | cons x l ih =>
    rw [List.mapM_cons]
    exact Logs.congr (Logs.bind (h x) (Logs.bind ih (Logs.pure _))) (by simp)

/-- a data element after the replacement -/
def replacedDataElement (f : PyStr → InputReplacement) (de : DataElement) : DataElement :=
  match de.discriminator with
  | none => de
  | some d => if (f d).replacementFound then { de with enteredInput := (f d).inputReplacement } else de

theorem Logs.record (f : PyStr → InputReplacement) (d : PyStr) : Logs (recordCalls f d) (f d) [d] := by
  intro log; rfl

theorem Logs.dataElement (f : PyStr → InputReplacement) (de : DataElement) :
    Logs (replaceInputDataElement (recordCalls f) de) (replacedDataElement f de) de.discriminator.toList := by
  unfold replaceInputDataElement replacedDataElement
  cases de.discriminator with
  | none => exact Logs.pure _
  | some d => exact (Logs.record f d).bind (Logs.pure _)

theorem Logs.segment (f : PyStr → InputReplacement) (s : Segment) :
    Logs (replaceInputSegment (recordCalls f) s) { s with dataElements := s.dataElements.map (replacedDataElement f) }
      (s.dataElements.flatMap fun de => de.discriminator.toList) := by
  unfold replaceInputSegment
  exact Logs.congr (Logs.bind (Logs.mapM (Logs.dataElement f) s.dataElements) (Logs.pure _)) (by simp)

namespace SegmentGroup
mutual
/-- the discriminators in the order of the calls: sub groups first -/
def calls : SegmentGroup → List PyStr
  | mk _ _ _ s gs => callsOpt gs ++ (s.getD []).flatMap fun x => x.dataElements.flatMap fun de => de.discriminator.toList
def callsOpt : Option (List SegmentGroup) → List PyStr
  | none => []
  | some l => callsList l
def callsList : List SegmentGroup → List PyStr
  | [] => []
  | g :: l => calls g ++ callsList l
end
end SegmentGroup

mutual
theorem Logs.group (f : PyStr → InputReplacement) : ∀ g : SegmentGroup,
    Logs (replaceInputGroup (recordCalls f) g) (g.mapDataElements (replacedDataElement f)) g.calls
  | .mk d e i none gs => by
    simp only [replaceInputGroup, mapDataElements, calls]
    exact (Logs.groupOpt f gs).bind (Logs.pure _)
  | .mk d e i (some ss) gs => by
    simp only [replaceInputGroup, mapDataElements, calls]
    exact Logs.congr (Logs.bind (Logs.groupOpt f gs) (Logs.bind (Logs.mapM (Logs.segment f) ss) (Logs.pure _)))
      (by simp)
theorem Logs.groupOpt (f : PyStr → InputReplacement) : ∀ o : Option (List SegmentGroup),
    Logs (replaceInputOpt (recordCalls f) o) (mapDataElementsOpt (replacedDataElement f) o) (callsOpt o)
  | none => by simp only [replaceInputOpt, mapDataElementsOpt, callsOpt]; exact Logs.pure _
  | some l => by
    simp only [replaceInputOpt, mapDataElementsOpt, callsOpt]
    exact Logs.congr (Logs.bind (Logs.groups f l) (Logs.pure _)) (by simp)
theorem Logs.groups (f : PyStr → InputReplacement) : ∀ l : List SegmentGroup,
    Logs (replaceInputs (recordCalls f) l) (mapDataElementsList (replacedDataElement f) l) (callsList l)
  | [] => by simp only [replaceInputs, mapDataElementsList, callsList]; exact Logs.pure _
  | g :: l => by
    simp only [replaceInputs, mapDataElementsList, callsList]
    exact Logs.congr (Logs.bind (Logs.group f g) (Logs.bind (Logs.groups f l) (Logs.pure _))) (by simp)
end

theorem callsList_eq (l : List SegmentGroup) : callsList l = l.flatMap SegmentGroup.calls := by
  induction l with
  | nil => rfl
  | cons g l ih => simp [callsList, ih]

theorem calls_eq (g : SegmentGroup) : g.calls = g.children.flatMap SegmentGroup.calls ++
    g.ownSegments.flatMap fun x => x.dataElements.flatMap fun de => de.discriminator.toList := by
  cases g with
  | mk d e i s gs => cases gs <;> simp [calls, callsOpt, children, segmentGroups, ownSegments, segments, callsList_eq]

theorem filterMap_segment_items (s : Segment) : s.docItems.filterMap DocItem.dataElementDiscriminator =
    s.dataElements.flatMap fun de => de.discriminator.toList := by
  simp only [Segment.docItems, Segment.header, List.filterMap_cons, DocItem.dataElementDiscriminator, List.filterMap_map]
  induction s.dataElements with
  | nil => rfl
  | cons de l ih =>
    cases h : de.discriminator <;> simp_all [DocItem.dataElementDiscriminator]

theorem calls_perm (g : SegmentGroup) :
    g.calls.Perm (g.docItems.filterMap DocItem.dataElementDiscriminator) := by
  induction g using SegmentGroup.induct with
  | h g ih =>
    rw [calls_eq, docItems_eq]
    simp only [SegmentGroup.header, List.filterMap_cons, DocItem.dataElementDiscriminator, List.filterMap_append,
      documentOrder, List.filterMap_flatMap, filterMap_segment_items]
    refine List.perm_append_comm.trans (List.Perm.append_left _ ?_)
    exact perm_flatMap _ fun c hc => ih c hc

theorem callsList_perm (l : List SegmentGroup) :
    (callsList l).Perm ((documentOrder l).filterMap DocItem.dataElementDiscriminator) := by
  rw [callsList_eq, documentOrder, List.filterMap_flatMap]
  exact perm_flatMap _ fun c _ => calls_perm c


theorem mapDataElementsList_eq (f : DataElement → DataElement) (l : List SegmentGroup) :
    mapDataElementsList f l = l.map (SegmentGroup.mapDataElements f) := by
  induction l with
  | nil => rfl
  | cons g l ih => simp [mapDataElementsList, ih]

/-- an item with the function applied if it is a data element -/
def DocItem.mapDataElement (f : DataElement → DataElement) : DocItem → DocItem
  | .dataElement de => .dataElement (f de)
  | x => x

theorem docItems_mapDataElements (f : DataElement → DataElement) (g : SegmentGroup) :
    (g.mapDataElements f).docItems = g.docItems.map (DocItem.mapDataElement f) := by
  induction g using SegmentGroup.induct with
  | h g ih =>
    rw [docItems_eq, docItems_eq]
    have hc : (g.mapDataElements f).children = g.children.map (SegmentGroup.mapDataElements f) := by
      cases g with
      | mk d e i s gs => cases gs <;>
          simp [SegmentGroup.mapDataElements, mapDataElementsOpt, children, segmentGroups, mapDataElementsList_eq]
    have hs : (g.mapDataElements f).ownSegments =
        g.ownSegments.map fun x => { x with dataElements := x.dataElements.map f } := by
      cases g with
      | mk d e i s gs => cases s <;> simp [SegmentGroup.mapDataElements, ownSegments, segments]
    have hh : (g.mapDataElements f).header = g.header := by cases g; rfl
    rw [hc, hs, hh, List.map_cons, List.map_append]
    congr 2
    · rw [List.flatMap_map, List.map_flatMap]
      refine List.flatMap_congr fun s _ => ?_
      simp [Segment.docItems, Segment.header, DocItem.mapDataElement, Function.comp_def]
    · rw [documentOrder, List.flatMap_map, documentOrder, List.map_flatMap]
      exact List.flatMap_congr fun c hc => ih c hc

end Verif
