import Verif.Proofs.Deep
import Verif.Proofs.List
/-! addresses of groups and document order -/

namespace Verif
open SegmentGroup

/-- the group items of a document -/
def DocItem.isGroup : DocItem → Bool
  | .group .. => true
  | _ => false

theorem addressesList_eq (l : List SegmentGroup) (n : Nat) :
    addressesList n l = (l.zipIdx n).flatMap fun x => x.1.addresses.map (x.2 :: ·) := by
  induction l generalizing n with
  | nil => simp [addressesList]
  | cons g l ih => simp [addressesList, ih]

theorem addresses_eq (g : SegmentGroup) : g.addresses = [] :: groupAddresses g.children := by
  cases g with
  | mk d e i s gs => cases gs <;> simp [addresses, addressesOpt, groupAddresses, children, segmentGroups, addressesList]

theorem groupAddresses_eq (l : List SegmentGroup) :
    groupAddresses l = l.zipIdx.flatMap fun x => x.1.addresses.map (x.2 :: ·) := addressesList_eq l 0

theorem at?_nil (g : SegmentGroup) : g.at? [] = some g := by rw [SegmentGroup.at?.eq_def]
theorem at?_cons (g : SegmentGroup) (i a) : g.at? (i :: a) = groupAt? g.children (i :: a) := by
  rw [SegmentGroup.at?.eq_def]; rfl

theorem mem_addresses (g : SegmentGroup) : ∀ a, a ∈ g.addresses ↔ (g.at? a).isSome = true := by
  induction g using SegmentGroup.induct with
  | h g ih =>
    intro a
    rw [addresses_eq, groupAddresses_eq]
    cases a with
    | nil => simp [at?_nil]
    | cons i a =>
      rw [at?_cons]
      simp only [List.mem_cons, List.mem_flatMap, List.mem_map, reduceCtorEq, false_or, groupAt?]
      constructor
      · rintro ⟨⟨c, j⟩, hc, b, hb, heq⟩
        cases heq
        rw [List.mem_zipIdx_iff_getElem?] at hc
        simp only at hc
        rw [hc]
        exact (ih c (List.mem_of_getElem? hc) _).1 hb
      · intro h
        cases hc : g.children[i]? with
        | none => rw [hc] at h; cases h
        | some c =>
          rw [hc] at h
          exact ⟨(c, i), List.mem_zipIdx_iff_getElem?.2 hc, a, (ih c (List.mem_of_getElem? hc) _).2 h, rfl⟩

theorem mem_groupAddresses (l : List SegmentGroup) (a) : a ∈ groupAddresses l ↔ (groupAt? l a).isSome = true := by
  rw [groupAddresses_eq]
  simp only [List.mem_flatMap, List.mem_map]
  constructor
  · rintro ⟨⟨c, j⟩, hc, b, hb, rfl⟩
    rw [List.mem_zipIdx_iff_getElem?] at hc
    simp only [groupAt?] at hc ⊢
    rw [hc]
    exact (mem_addresses c _).1 hb
  · cases a with
    | nil => simp [groupAt?]
    | cons i a =>
      intro h
      simp only [groupAt?] at h
      cases hc : l[i]? with
      | none => rw [hc] at h; cases h
      | some c =>
        rw [hc] at h
        exact ⟨(c, i), List.mem_zipIdx_iff_getElem?.2 hc, a, (mem_addresses c _).2 h, rfl⟩

theorem zipIdx_flatMap_congr {α β : Type} (l : List α) (f : α → List β) (g : α × Nat → List β)
    (h : ∀ i c, l[i]? = some c → f c = g (c, i)) : l.flatMap f = l.zipIdx.flatMap g := by
  have : ∀ (l : List α) n, (∀ i c, l[i]? = some c → f c = g (c, n + i)) → l.flatMap f = (l.zipIdx n).flatMap g := by
    intro l
    induction l with
    | nil => simp
    | cons x l ih =>
      intro n hn
      simp only [List.flatMap_cons, List.zipIdx_cons]
      rw [hn 0 x rfl, ih (n + 1) (by
        intro i c hc
        rw [hn (i + 1) c (by simpa using hc)]
        congr 2; omega)]
      rfl
  exact this l 0 (by simpa using h)

theorem segment_items_not_group (ss : List Segment) : (ss.flatMap Segment.docItems).filter DocItem.isGroup = [] := by
  rw [List.filter_eq_nil_iff]
  intro x hx
  simp only [List.mem_flatMap, Segment.docItems, List.mem_cons, List.mem_map] at hx
  obtain ⟨s, _, rfl | ⟨de, _, rfl⟩⟩ := hx <;> simp [Segment.header, DocItem.isGroup]

theorem docItems_groups (g : SegmentGroup) :
    (g.docItems.filter DocItem.isGroup).map some = g.addresses.map fun a => (g.at? a).map SegmentGroup.header := by
  induction g using SegmentGroup.induct with
  | h g ih =>
    rw [docItems_eq, addresses_eq, groupAddresses_eq]
    simp only [List.filter_cons, SegmentGroup.header, DocItem.isGroup, if_true, List.map_cons, at?_nil, Option.map_some,
      List.filter_append, segment_items_not_group, List.nil_append]
    congr 1
    rw [documentOrder, List.filter_flatMap, List.map_flatMap, List.map_flatMap]
    apply zipIdx_flatMap_congr
    intro i c hc
    rw [ih c (List.mem_of_getElem? hc), List.map_map]
    apply List.map_congr_left
    intro a _
    simp only [Function.comp, at?_cons, groupAt?, hc, Option.bind_some]

/-- the group items of the document, in document order, are the groups at the addresses -/
theorem documentOrder_groups (l : List SegmentGroup) :
    ((documentOrder l).filter DocItem.isGroup).map some =
      (groupAddresses l).map fun a => (groupAt? l a).map SegmentGroup.header := by
  rw [documentOrder, groupAddresses_eq, List.filter_flatMap, List.map_flatMap, List.map_flatMap]
  apply zipIdx_flatMap_congr
  intro i c hc
  rw [docItems_groups, List.map_map]
  apply List.map_congr_left
  intro a _
  simp [groupAt?, hc]

/-- everything in a group at some address occurs in the document -/
theorem docItems_subset (g : SegmentGroup) : ∀ a h, g.at? a = some h → ∀ x ∈ h.docItems, x ∈ g.docItems := by
  induction g using SegmentGroup.induct with
  | h g ih =>
    intro a h ha x hx
    cases a with
    | nil => rw [at?_nil] at ha; cases ha; exact hx
    | cons i a =>
      rw [at?_cons] at ha
      simp only [groupAt?] at ha
      cases hc : g.children[i]? with
      | none => rw [hc] at ha; cases ha
      | some c =>
        rw [hc] at ha
        rw [docItems_eq]
        have := ih c (List.mem_of_getElem? hc) a h ha x hx
        simp only [documentOrder, List.mem_cons, List.mem_append, List.mem_flatMap]
        exact Or.inr (Or.inr ⟨c, List.mem_of_getElem? hc, this⟩)

theorem mem_documentOrder {l : List SegmentGroup} {a h} (ha : groupAt? l a = some h) :
    ∀ x ∈ h.docItems, x ∈ documentOrder l := by
  intro x hx
  cases a with
  | nil => cases ha
  | cons i a =>
    simp only [groupAt?] at ha
    cases hc : l[i]? with
    | none => rw [hc] at ha; cases ha
    | some c =>
      rw [hc] at ha
      simp only [documentOrder, List.mem_flatMap]
      exact ⟨c, List.mem_of_getElem? hc, docItems_subset c a h ha x hx⟩

theorem mem_docItems_iff (g : SegmentGroup) : ∀ x, x ∈ g.docItems ↔ ∃ a h, g.at? a = some h ∧
    (x = h.header ∨ ∃ s ∈ h.ownSegments, x ∈ s.docItems) := by
  induction g using SegmentGroup.induct with
  | h g ih =>
    intro x
    constructor
    · intro hx
      rw [docItems_eq] at hx
      simp only [List.mem_cons, List.mem_append, List.mem_flatMap, documentOrder] at hx
      rcases hx with rfl | ⟨s, hs, hx⟩ | ⟨c, hc, hx⟩
      · exact ⟨[], g, at?_nil g, Or.inl rfl⟩
      · exact ⟨[], g, at?_nil g, Or.inr ⟨s, hs, hx⟩⟩
      · obtain ⟨a, h, ha, hh⟩ := (ih c hc x).1 hx
        obtain ⟨i, hi⟩ := List.getElem?_of_mem hc
        exact ⟨i :: a, h, by rw [at?_cons]; simp [groupAt?, hi, ha], hh⟩
    · rintro ⟨a, h, ha, hh⟩
      apply docItems_subset g a h ha
      rw [docItems_eq]
      rcases hh with rfl | ⟨s, hs, hx⟩
      · simp
      · simp only [List.mem_cons, List.mem_append, List.mem_flatMap]
        exact Or.inr (Or.inl ⟨s, hs, hx⟩)

theorem groupAddresses_nodup {l : List SegmentGroup} : (groupAddresses l).Nodup := by
  have key : ∀ g : SegmentGroup, g.addresses.Nodup := by
    intro g
    induction g using SegmentGroup.induct with
    | h g ih =>
      rw [addresses_eq, List.nodup_cons]
      constructor
      · rw [groupAddresses_eq]; simp
      · rw [groupAddresses_eq]
        have : ∀ (l : List SegmentGroup) n, (∀ c ∈ l, c.addresses.Nodup) →
            ((l.zipIdx n).flatMap fun x => x.1.addresses.map (x.2 :: ·)).Nodup := by
          intro l
          induction l with
          | nil => simp
          | cons c l ih2 =>
            intro n h
            simp only [List.zipIdx_cons, List.flatMap_cons]
            rw [List.nodup_append]
            refine ⟨?_, ih2 _ (fun c hc => h c (List.mem_cons_of_mem _ hc)), ?_⟩
            · have hc := h c List.mem_cons_self
              exact List.pairwise_map.2 (hc.imp (by simp))
            · intro a ha b hb
              simp only [List.mem_map, List.mem_flatMap] at ha hb
              obtain ⟨a', _, rfl⟩ := ha
              obtain ⟨⟨c', j⟩, hj, b', _, rfl⟩ := hb
              have := List.le_snd_of_mem_zipIdx hj
              simp only at this ⊢
              intro heq
              injection heq with h1 h2
              omega
        exact this _ 0 ih
  rw [groupAddresses_eq]
  have : ∀ (l : List SegmentGroup) n,
      ((l.zipIdx n).flatMap fun x => x.1.addresses.map (x.2 :: ·)).Nodup := by
    intro l
    induction l with
    | nil => simp
    | cons c l ih2 =>
      intro n
      simp only [List.zipIdx_cons, List.flatMap_cons]
      rw [List.nodup_append]
      refine ⟨?_, ih2 _, ?_⟩
      · exact List.pairwise_map.2 ((key c).imp (by simp))
      · intro a ha b hb
        simp only [List.mem_map, List.mem_flatMap] at ha hb
        obtain ⟨a', _, rfl⟩ := ha
        obtain ⟨⟨c', j⟩, hj, b', _, rfl⟩ := hb
        have := List.le_snd_of_mem_zipIdx hj
        simp only at this ⊢
        intro heq
        injection heq with h1 h2
        omega
  exact this l 0

end Verif
