import Verif.Spec.FindExact
import Verif.Proofs.DeepRef
/-! order and multiplicity of the results of `find_segment_groups` and `find_segments` -/

namespace Verif
open SegmentGroup

theorem mem_groupsInOrder {l : List SegmentGroup} {g : SegmentGroup} : g ∈ groupsInOrder l ↔ GroupOccurs l g := by
  unfold groupsInOrder
  rw [List.mem_filterMap]
  constructor
  · rintro ⟨a, _, h⟩; exact ⟨a, h⟩
  · rintro ⟨a, h⟩; exact ⟨a, (mem_groupAddresses l a).2 (by rw [h]; rfl), h⟩

theorem addresses_filterMap (c : SegmentGroup) : c.addresses.filterMap c.at? = c :: groupsInOrder c.children := by
  rw [addresses_eq, List.filterMap_cons_some (at?_nil c), groupsInOrder]
  congr 1
  refine List.filterMap_congr fun a ha => ?_
  cases a with
  | nil => have := (mem_groupAddresses _ _).1 ha; cases this
  | cons i a => exact at?_cons c i a

theorem groupsInOrder_eq (l : List SegmentGroup) : groupsInOrder l = l.flatMap fun g => g :: groupsInOrder g.children := by
  rw [groupsInOrder, groupAddresses_eq, List.filterMap_flatMap]
  symm
  apply zipIdx_flatMap_congr
  intro i c hc
  rw [← addresses_filterMap, List.filterMap_map]
  refine List.filterMap_congr fun a _ => ?_
  simp only [Function.comp, groupAt?, hc, Option.bind_some]

theorem query_inOrder (p : SegmentGroup → Bool) (g : SegmentGroup) : g.query p = (g :: groupsInOrder g.children).filter p := by
  induction g using SegmentGroup.induct with
  | h g ih =>
    rw [query_eq, List.filter_cons, groupsInOrder_eq, List.filter_flatMap]
    have : g.children.flatMap (SegmentGroup.query p) =
        g.children.flatMap fun c => (c :: groupsInOrder c.children).filter p := List.flatMap_congr fun c hc => ih c hc
    rw [this]
    split <;> simp

theorem children_query (p : SegmentGroup → Bool) (l : List SegmentGroup) : l.flatMap (SegmentGroup.query p) = (groupsInOrder l).filter p := by
  rw [groupsInOrder_eq, List.filter_flatMap]
  exact List.flatMap_congr fun c _ => query_inOrder p c

theorem appendNew_subset {α} [DecidableEq α] (r xs : List α) (h : ∀ x ∈ xs, x ∈ r) : appendNew r xs = r := by
  induction xs with
  | nil => rfl
  | cons y xs ih =>
    have : appendNew r (y :: xs) = appendNew (if y ∈ r then r else r ++ [y]) xs := rfl
    rw [this, if_pos (h y (by simp))]
    exact ih fun x hx => h x (by simp [hx])

/-- one outermost group: the groups below it and then the group itself, unless it is there already -/
theorem findStep_exact (p : SegmentGroup → Bool) (r : List SegmentGroup) (line : SegmentGroup) :
    findSegmentGroupsStep p r line =
      r ++ (groupsInOrder line.children).filter p ++ (if line ∈ r ++ (groupsInOrder line.children).filter p then [] else [line].filter p) := by
  rw [findSegmentGroupsStep_eq, children_query, query_inOrder, List.filter_cons]
  by_cases hp : p line = true
  · rw [if_pos hp]
    have : ∀ r' xs, appendNew r' (line :: xs) = appendNew (if line ∈ r' then r' else r' ++ [line]) xs := fun _ _ => rfl
    rw [this]
    have hsub : ∀ r', (∀ x ∈ (groupsInOrder line.children).filter p, x ∈ r') → appendNew r' ((groupsInOrder line.children).filter p) = r' :=
      fun r' h => appendNew_subset r' _ h
    split
    · rw [hsub _ fun x hx => by simp only [List.mem_append]; exact .inr hx]
      simp
    · rw [hsub _ fun x hx => by simp only [List.mem_append]; exact .inl (.inr hx)]
      simp [List.filter_cons, hp]
  · rw [if_neg hp, appendNew_subset _ _ fun x hx => by simp only [List.mem_append]; exact .inr hx]
    simp [List.filter_cons, hp]

theorem findSegmentGroups_exact (p : SegmentGroup → Bool) (a : DeepAhb) (hd : DistinctGroups a.lines) :
    a.findSegmentGroups p = a.lines.flatMap fun line => (groupsInOrder line.children).filter p ++ [line].filter p := by
  have key : ∀ (post pre : List SegmentGroup), a.lines = pre ++ post →
      post.foldl (findSegmentGroupsStep p) (pre.flatMap fun line => (groupsInOrder line.children).filter p ++ [line].filter p) =
        (pre ++ post).flatMap fun line => (groupsInOrder line.children).filter p ++ [line].filter p := by
    intro post
    induction post with
    | nil => intro pre _; simp
    | cons line post ih =>
      intro pre hpre
      have hline : groupAt? a.lines [pre.length] = some line := by simp [groupAt?, hpre, at?_nil]
      have hnot : line ∉ (pre.flatMap fun line => (groupsInOrder line.children).filter p ++ [line].filter p) ++
          (groupsInOrder line.children).filter p := by
        intro hm
        rcases List.mem_append.1 hm with hm | hm
        · obtain ⟨x, hx, hm⟩ := List.mem_flatMap.1 hm
          obtain ⟨i, hi⟩ := List.getElem?_of_mem hx
          have hlt : i < pre.length := (List.getElem?_eq_some_iff.1 hi).1
          have hi' : a.lines[i]? = some x := by rw [hpre, List.getElem?_append_left hlt]; exact hi
          have : ∃ b, groupAt? a.lines (i :: b) = some line := by
            rcases List.mem_append.1 hm with hm | hm
            · obtain ⟨b, hb⟩ := mem_groupsInOrder.1 (List.mem_filter.1 hm).1
              cases b with
              | nil => cases hb
              | cons j b => exact ⟨j :: b, by rw [groupAt?, hi', Option.bind_some, at?_cons]; exact hb⟩
            · have := (List.mem_filter.1 hm).1
              rw [List.mem_singleton] at this
              exact ⟨[], by rw [groupAt?, hi', Option.bind_some, at?_nil, this]⟩
          obtain ⟨b, hb⟩ := this
          have := hd _ _ _ hb hline
          simp only [List.cons.injEq] at this
          omega
        · obtain ⟨b, hb⟩ := mem_groupsInOrder.1 (List.mem_filter.1 hm).1
          cases b with
          | nil => cases hb
          | cons j b =>
            have hc : a.lines[pre.length]? = some line := by simp [hpre]
            have : groupAt? a.lines (pre.length :: j :: b) = some line := by rw [groupAt?, hc, Option.bind_some, at?_cons]; exact hb
            have := hd _ _ _ this hline
            simp at this
      rw [List.foldl_cons, findStep_exact, if_neg hnot]
      have := ih (pre ++ [line]) (by simp [hpre])
      simp only [List.flatMap_append, List.flatMap_cons, List.flatMap_nil, List.append_nil, List.append_assoc] at this ⊢
      exact this
  exact key a.lines [] rfl

theorem findSegmentGroups_perm (p : SegmentGroup → Bool) (a : DeepAhb) (hd : DistinctGroups a.lines) :
    (a.findSegmentGroups p).Perm ((groupsInOrder a.lines).filter p) := by
  rw [findSegmentGroups_exact p a hd, groupsInOrder_eq, List.filter_flatMap]
  generalize a.lines = l
  induction l with
  | nil => exact .refl _
  | cons x l ih =>
    simp only [List.flatMap_cons]
    refine List.Perm.append ?_ ih
    have : (x :: groupsInOrder x.children).filter p = [x].filter p ++ (groupsInOrder x.children).filter p := by
      rw [← List.filter_append]; rfl
    rw [this]
    exact List.perm_append_comm

theorem groupsInOrder_nodup {l : List SegmentGroup} (hd : DistinctGroups l) : (groupsInOrder l).Nodup := by
  unfold groupsInOrder
  have hn : (groupAddresses l).Nodup := groupAddresses_nodup
  revert hn
  generalize groupAddresses l = as
  intro hn
  induction as with
  | nil => exact List.nodup_nil
  | cons a as ih =>
    obtain ⟨h1, h2⟩ := List.nodup_cons.1 hn
    rw [List.filterMap_cons]
    split
    · exact ih h2
    · rename_i g hg
      refine List.nodup_cons.2 ⟨fun hm => ?_, ih h2⟩
      obtain ⟨b, hb, hg'⟩ := List.mem_filterMap.1 hm
      exact h1 (hd _ _ _ hg hg' ▸ hb)

/-! ## counting -/

theorem sum_map_ite {α : Type} (l : List α) (q : α → Bool) (f : α → Nat) (h : ∀ x ∈ l, f x = if q x then 1 else 0) :
    (l.map f).sum = l.countP q := by
  induction l with
  | nil => rfl
  | cons x l ih =>
    rw [List.map_cons, List.sum_cons, h x (by simp), ih fun y hy => h y (by simp [hy]), List.countP_cons]
    split <;> omega

theorem countP_eq_one {α : Type} [DecidableEq α] (l : List α) (hn : l.Nodup) (q : α → Bool) (x : α) (hx : x ∈ l) (hq : ∀ y ∈ l, q y = decide (y = x)) :
    l.countP q = 1 := by
  have : l.countP q = l.count x := by
    rw [List.count, List.countP_congr]
    intro y hy
    rw [hq y hy]
    simp
  rw [this, List.Nodup.count hn, if_pos hx]

theorem segmentGroup_at?_append (g : SegmentGroup) (b c : List Nat) : g.at? (b ++ c) = (g.at? b).bind fun h => h.at? c := by
  induction b generalizing g with
  | nil => simp [at?_nil]
  | cons i b ih =>
    rw [List.cons_append, at?_cons, at?_cons, groupAt?, groupAt?]
    cases g.children[i]? with
    | none => rfl
    | some x => simp only [Option.bind_some]; exact ih x

theorem groupAt?_take {l : List SegmentGroup} {a : List Nat} {g : SegmentGroup} (h : groupAt? l a = some g) (k : Nat) (hk : k < a.length) :
    ∃ x, groupAt? l (a.take (k + 1)) = some x := by
  cases a with
  | nil => cases h
  | cons i a =>
    rw [groupAt?] at h
    rw [List.take_succ_cons, groupAt?]
    cases hc : l[i]? with
    | none => rw [hc] at h; cases h
    | some c =>
      rw [hc, Option.bind_some] at h
      rw [Option.bind_some]
      rw [← List.take_append_drop k a, segmentGroup_at?_append] at h
      cases hx : c.at? (a.take k) with
      | none => rw [hx] at h; cases h
      | some x => exact ⟨x, rfl⟩

theorem addresses_nodup (g : SegmentGroup) : g.addresses.Nodup := by
  rw [addresses_eq]
  refine List.nodup_cons.2 ⟨fun h => ?_, groupAddresses_nodup⟩
  have := (mem_groupAddresses _ _).1 h
  cases this

/-- how often the segment occurs in the group at an address and below -/
theorem count_segmentsInOrder {l : List SegmentGroup} {A : List Nat} {s : Segment} (h : OnlyIn l A s) {b : List Nat} {g : SegmentGroup}
    (hb : groupAt? l b = some g) : g.segmentsInOrder.count s = if b.isPrefixOf A then 1 else 0 := by
  obtain ⟨gA, hA, h1, h2⟩ := h
  rw [segmentsInOrder, List.count_flatMap]
  apply Eq.trans (sum_map_ite _ (fun c => decide (b ++ c = A)) _ ?_)
  rotate_left
  · intro c _
    simp only [Function.comp]
    cases hg : g.at? c with
    | none =>
      rw [if_neg]
      · rfl
      · intro he
        rw [decide_eq_true_eq] at he
        rw [← groupAt?_append _ hb, he, hA] at hg
        cases hg
    | some x =>
      simp only
      rw [← groupAt?_append _ hb] at hg
      by_cases he : b ++ c = A
      · rw [he, hA] at hg
        cases hg
        rw [if_pos (by simpa using he), h1]
      · rw [if_neg (by simpa using he), List.count_eq_zero]
        exact fun hs => he (h2 _ _ hg hs)
  split
  · rename_i hp
    rw [List.isPrefixOf_iff_prefix] at hp
    obtain ⟨c, rfl⟩ := hp
    refine countP_eq_one _ (addresses_nodup g) _ c ?_ ?_
    · rw [mem_addresses, ← groupAt?_append _ hb, hA]; rfl
    · intro y _
      simp
  · rename_i hp
    rw [List.countP_eq_zero]
    intro c _ he
    rw [decide_eq_true_eq] at he
    exact hp (by rw [List.isPrefixOf_iff_prefix]; exact ⟨c, he⟩)

theorem count_groups {l : List SegmentGroup} {A : List Nat} {s : Segment} (h : OnlyIn l A s) (gp : SegmentGroup → Bool) :
    (((groupsInOrder l).filter gp).map fun g => g.segmentsInOrder.count s).sum = matchesAbove l gp A := by
  have e1 : ∀ as : List (List Nat), ((((as.filterMap (groupAt? l)).filter gp).map fun g => g.segmentsInOrder.count s).sum) =
      as.countP fun b => b.isPrefixOf A && (groupAt? l b).any gp := by
    intro as
    induction as with
    | nil => rfl
    | cons b as ih =>
      rw [List.countP_cons, List.filterMap_cons]
      cases hb : groupAt? l b with
      | none => simpa [hb] using ih
      | some g =>
        simp only [List.filter_cons, Option.any_some]
        by_cases hg : gp g = true
        · rw [if_pos hg, List.map_cons, List.sum_cons, ih, count_segmentsInOrder h hb]
          simp only [hg, Bool.and_true]
          omega
        · rw [if_neg hg, ih]
          simp [hg]
  rw [groupsInOrder, e1, matchesAbove]
  have e2 : (List.range A.length).countP (fun k => (groupAt? l (A.take (k + 1))).any gp) =
      ((List.range A.length).map fun k => A.take (k + 1)).countP fun b => (groupAt? l b).any gp := by
    rw [List.countP_map]; rfl
  rw [e2]
  have e3 : (groupAddresses l).countP (fun b => b.isPrefixOf A && (groupAt? l b).any gp) =
      ((groupAddresses l).filter fun b => b.isPrefixOf A).countP fun b => (groupAt? l b).any gp := by
    rw [List.countP_filter]
    refine List.countP_congr fun b _ => ?_
    rw [Bool.and_comm]
  rw [e3]
  apply List.Perm.countP_eq
  obtain ⟨gA, hA, _, _⟩ := h
  rw [List.perm_ext_iff_of_nodup]
  · intro b
    rw [List.mem_filter, List.mem_map, List.isPrefixOf_iff_prefix, mem_groupAddresses]
    constructor
    · rintro ⟨hb, hp⟩
      cases b with
      | nil => cases hb
      | cons i b =>
        refine ⟨b.length, ?_, ?_⟩
        · have := hp.length_le
          simp only [List.length_cons] at this
          exact List.mem_range.2 (by omega)
        · obtain ⟨c, rfl⟩ := hp
          simp
    · rintro ⟨k, hk, rfl⟩
      obtain ⟨x, hx⟩ := groupAt?_take hA k (List.mem_range.1 hk)
      exact ⟨by rw [hx]; rfl, List.take_prefix _ _⟩
  · exact groupAddresses_nodup.sublist List.filter_sublist
  · rw [List.Nodup, List.pairwise_map]
    have : (List.range A.length).Pairwise fun i j => i < j ∧ j < A.length := by
      rw [List.pairwise_iff_getElem]
      intro i j hi hj hij
      simp only [List.length_range] at hj
      simpa [List.getElem_range] using ⟨hij, hj⟩
    refine this.imp ?_
    rintro i j ⟨hij, hj⟩ he
    have := congrArg List.length he
    simp only [List.length_take] at this
    omega

/-- how often the segment occurs directly in the outermost groups -/
theorem count_outermost {l : List SegmentGroup} {A : List Nat} {s : Segment} (h : OnlyIn l A s) :
    (l.map fun g => g.ownSegments.count s).sum = if A.length = 1 then 1 else 0 := by
  obtain ⟨gA, hA, h1, h2⟩ := h
  have hz : (l.map fun g => g.ownSegments.count s) = (l.zipIdx.map fun x => x.1.ownSegments.count s) := by
    have := congrArg (List.map fun g : SegmentGroup => g.ownSegments.count s) (List.zipIdx_map_fst 0 l)
    rw [List.map_map] at this
    exact this.symm
  rw [hz, sum_map_ite _ (fun x => decide ([x.2] = A))]
  · split
    · rename_i hl
      obtain ⟨i, rfl⟩ := List.length_eq_one_iff.1 hl
      rw [groupAt?] at hA
      cases hi : l[i]? with
      | none => rw [hi] at hA; cases hA
      | some g =>
        refine countP_eq_one _ ?_ _ (g, i) (List.mem_zipIdx_iff_getElem?.2 hi) ?_
        · exact List.Nodup.of_map Prod.snd (by rw [List.zipIdx_map_snd]; exact List.nodup_range')
        · rintro ⟨y, j⟩ hy
          rw [List.mem_zipIdx_iff_getElem?] at hy
          simp only at hy
          by_cases hj : j = i
          · subst hj
            rw [hi] at hy
            cases hy
            simp
          · simp [hj]
    · rename_i hl
      rw [List.countP_eq_zero]
      intro x _ he
      rw [decide_eq_true_eq] at he
      exact hl (by rw [← he]; rfl)
  · rintro ⟨g, i⟩ hx
    rw [List.mem_zipIdx_iff_getElem?] at hx
    simp only at hx ⊢
    have hg : groupAt? l [i] = some g := by rw [groupAt?, hx, Option.bind_some, at?_nil]
    by_cases he : [i] = A
    · rw [if_pos (by simpa using he)]
      rw [he, hA] at hg
      cases hg
      exact h1
    · rw [if_neg (by simpa using he), List.count_eq_zero]
      exact fun hs => he (h2 _ _ hg hs)

theorem count_findSegments {a : DeepAhb} (hd : DistinctGroups a.lines) (gp : SegmentGroup → Bool) (sp : Segment → Bool) {A : List Nat} {s : Segment}
    (h : OnlyIn a.lines A s) (hs : sp s = true) :
    (a.findSegments gp sp).count s = matchesAbove a.lines gp A + if A.length = 1 then 1 else 0 := by
  unfold DeepAhb.findSegments
  simp only
  rw [List.count_append, List.count_flatMap, List.count_flatMap]
  congr 1
  · rw [← count_groups h gp]
    refine List.Perm.sum_nat ?_
    have : (List.count s ∘ fun g : SegmentGroup => g.findSegments sp true) = fun g => g.segmentsInOrder.count s := by
      funext g
      simp only [Function.comp]
      rw [findSegments_inOrder, List.count_filter hs]
    rw [this]
    exact (findSegmentGroups_perm gp a hd).map _
  · rw [← count_outermost h]
    congr 1
    refine List.map_congr_left fun g _ => ?_
    simp only [Function.comp]
    cases hg : g.segments with
    | none => simp [ownSegments, hg]
    | some ss => simp only [ownSegments, hg, Option.getD_some]; rw [List.count_filter hs]

end Verif
