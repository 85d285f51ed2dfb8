import Verif.Spec.DeepRef
import Verif.Proofs.DeepOps
import Mathlib.Data.List.Induction
/-! lemmas about the search by reference -/

namespace Verif
open SegmentGroup

/-! ## unfolding along `children` -/

theorem findSegmentRefsList_eq (p : List Nat) (l : List SegmentGroup) : ∀ n,
    findSegmentRefsList p n l = (l.zipIdx n).flatMap fun x => findSegmentRefs (p ++ [x.2]) x.1 := by
  induction l with
  | nil => intro n; simp [findSegmentRefsList]
  | cons g l ih => intro n; simp [findSegmentRefsList, ih]

theorem findSegmentRefs_eq (p : List Nat) (g : SegmentGroup) :
    g.findSegmentRefs p = (g.ownSegments.zipIdx.map fun x => ((p, x.2), x.1)) ++
      g.children.zipIdx.flatMap fun x => findSegmentRefs (p ++ [x.2]) x.1 := by
  cases g with
  | mk d e i s gs =>
    cases s <;> cases gs <;> simp [findSegmentRefs, findSegmentRefsOpt, ownSegments, children, segments,
      segmentGroups, findSegmentRefsList_eq]

theorem queryRefsList_eq (p : List Nat) (l : List SegmentGroup) : ∀ n,
    queryRefsList p n l = (l.zipIdx n).flatMap fun x => queryRefs (p ++ [x.2]) x.1 := by
  induction l with
  | nil => intro n; simp [queryRefsList]
  | cons g l ih => intro n; simp [queryRefsList, ih]

theorem queryRefs_eq (p : List Nat) (g : SegmentGroup) :
    g.queryRefs p = (p, g) :: g.children.zipIdx.flatMap fun x => queryRefs (p ++ [x.2]) x.1 := by
  cases g with
  | mk d e i s gs =>
    cases gs <;> simp [queryRefs, queryRefsOpt, children, segmentGroups, queryRefsList_eq]

/-! ## forgetting the places -/

theorem flatMap_zipIdx_fst {α β : Type} (l : List α) (f : α → List β) (n : Nat) :
    ((l.zipIdx n).flatMap fun x => f x.1) = l.flatMap f := by
  induction l generalizing n with
  | nil => rfl
  | cons x l ih => simp [ih]

theorem map_flatMap_zipIdx {α β γ : Type} (l : List α) (n : Nat) (f : α × Nat → List β) (g : β → γ) (h : α → List γ)
    (hf : ∀ x ∈ l, ∀ i, (f (x, i)).map g = h x) : ((l.zipIdx n).flatMap f).map g = l.flatMap h := by
  induction l generalizing n with
  | nil => rfl
  | cons x l ih => simp [ih (n + 1) (fun y hy => hf y (by simp [hy])), hf x (by simp) n]

theorem findSegmentRefs_snd (g : SegmentGroup) : ∀ p, (g.findSegmentRefs p).map Prod.snd = g.findSegments (fun _ => true) true := by
  induction g using SegmentGroup.induct with
  | h g ih =>
    intro p
    rw [findSegmentRefs_eq, findSegments_true, List.map_append, map_flatMap_zipIdx _ _ _ _ _ (fun c hc i => ih c hc _)]
    congr 1
    simp only [List.map_map, List.filter_true]
    have : (Prod.snd ∘ fun x : Segment × Nat => ((p, x.2), x.1)) = Prod.fst := rfl
    rw [this, List.zipIdx_map_fst]

theorem queryRefs_snd (g : SegmentGroup) : ∀ p, (g.queryRefs p).map Prod.snd = g.query fun _ => true := by
  induction g using SegmentGroup.induct with
  | h g ih =>
    intro p
    rw [queryRefs_eq, query_eq, List.map_cons, map_flatMap_zipIdx _ _ _ _ _ (fun c hc i => ih c hc _)]
    simp

theorem appendNewRefs_snd (r xs : List GroupRef) :
    (appendNewRefs r xs).map Prod.snd = appendNew (r.map Prod.snd) (xs.map Prod.snd) := by
  unfold appendNewRefs appendNew
  induction xs generalizing r with
  | nil => rfl
  | cons x xs ih =>
    rw [List.foldl_cons, ih, List.map_cons, List.foldl_cons]
    congr 1
    split <;> simp

theorem foldl_append_flatMap_zipIdx {α β : Type} (f : α × Nat → List β) (l : List (α × Nat)) (r : List β) :
    l.foldl (fun r x => r ++ f x) r = r ++ l.flatMap f := foldl_append_flatMap f l r

theorem groupRefsStep_eq (r : List GroupRef) (line : SegmentGroup × Nat) : groupRefsStep r line =
    appendNewRefs (r ++ line.1.children.zipIdx.flatMap fun x => queryRefs [line.2, x.2] x.1) (line.1.queryRefs [line.2]) := by
  obtain ⟨line, n⟩ := line
  unfold groupRefsStep
  cases h : line.segmentGroups with
  | none => simp [children, h]
  | some gs => simp only [h, children, Option.getD_some]; rw [foldl_append_flatMap]

theorem findSegmentGroupsStep_eq (p : SegmentGroup → Bool) (r : List SegmentGroup) (line : SegmentGroup) :
    findSegmentGroupsStep p r line = appendNew (r ++ line.children.flatMap (SegmentGroup.query p)) (line.query p) := by
  unfold findSegmentGroupsStep
  cases h : line.segmentGroups with
  | none => simp [children, h]
  | some gs => simp only [h, children, Option.getD_some]; rw [foldl_append_flatMap]

theorem groupRefs_snd (a : DeepAhb) : a.groupRefs.map Prod.snd = a.findSegmentGroups fun _ => true := by
  unfold DeepAhb.groupRefs DeepAhb.findSegmentGroups
  have key : ∀ (l : List SegmentGroup) (n : Nat) (r : List GroupRef), ((l.zipIdx n).foldl groupRefsStep r).map Prod.snd =
      l.foldl (findSegmentGroupsStep fun _ => true) (r.map Prod.snd) := by
    intro l
    induction l with
    | nil => intro n r; rfl
    | cons g l ih =>
      intro n r
      rw [List.zipIdx_cons, List.foldl_cons, ih, List.foldl_cons, groupRefsStep_eq, findSegmentGroupsStep_eq, appendNewRefs_snd,
        List.map_append, queryRefs_snd, map_flatMap_zipIdx _ _ _ _ _ (fun c _ i => queryRefs_snd c _)]
  exact key a.lines 0 []

theorem segmentRefs_snd (a : DeepAhb) : a.segmentRefs.map Prod.snd = a.findSegments (fun _ => true) fun _ => true := by
  unfold DeepAhb.segmentRefs DeepAhb.findSegments
  simp only
  rw [List.map_append]
  congr 1
  · rw [← groupRefs_snd]
    generalize a.groupRefs = l
    induction l with
    | nil => rfl
    | cons x l ih => simp [ih, findSegmentRefs_snd]
  · refine map_flatMap_zipIdx _ _ _ _ _ fun line _ i => ?_
    cases line.segments with
    | none => rfl
    | some l =>
      simp only [List.map_map, List.filter_true]
      have : (Prod.snd ∘ fun x : Segment × Nat => (([i], x.2), x.1)) = Prod.fst := rfl
      rw [this, List.zipIdx_map_fst]

theorem segmentPoolRefs_snd (s : SegmentRef) : (segmentPoolRefs s).map Prod.snd = s.2.getAllValuePools := by
  unfold segmentPoolRefs Segment.getAllValuePools
  generalize s.2.dataElements = l
  rw [List.map_map]
  have : ∀ n, ((l.zipIdx n).filter fun x => x.1.isValuePool).map
      (Prod.snd ∘ fun x : DataElement × Nat => ((⟨s.1.1, s.1.2, x.2⟩ : ElementAddr), x.1)) = l.filter DataElement.isValuePool := by
    induction l with
    | nil => intro n; rfl
    | cons x l ih =>
      intro n
      rw [List.zipIdx_cons, List.filter_cons, List.filter_cons]
      simp only
      split <;> simp [← ih (n + 1)]
  exact this 0

theorem groupPoolRefs_snd (g : GroupRef) : (groupPoolRefs g).map Prod.snd = g.2.getAllValuePools := by
  unfold groupPoolRefs SegmentGroup.getAllValuePools
  rw [← findSegmentRefs_snd g.2 g.1]
  generalize g.2.findSegmentRefs g.1 = l
  induction l with
  | nil => rfl
  | cons x l ih => simp [ih, segmentPoolRefs_snd]

theorem foldl_addRef_snd (l : List ElementRef) (acc : PoolRefAcc) (acc' : ValuePoolAcc)
    (h : acc.result.map Prod.snd = acc'.result ∧ acc.added = acc'.added) :
    (l.foldl addRefToResult acc).result.map Prod.snd = ((l.map Prod.snd).foldl addToResult acc').result ∧
    (l.foldl addRefToResult acc).added = ((l.map Prod.snd).foldl addToResult acc').added := by
  induction l generalizing acc acc' with
  | nil => exact h
  | cons x l ih =>
    rw [List.foldl_cons, List.map_cons, List.foldl_cons]
    apply ih
    unfold addRefToResult addToResult
    rw [h.1, h.2]
    split
    · exact h
    · split
      · simp [h.1]
      · exact h

/-- the pools that are found are those that are found by value -/
theorem getAllValuePoolRefs_snd (a : DeepAhb) : a.getAllValuePoolRefs.map Prod.snd = a.getAllValuePools := by
  unfold DeepAhb.getAllValuePoolRefs DeepAhb.getAllValuePools
  simp only
  rw [foldl_foldl_flatMap, foldl_foldl_flatMap, foldl_foldl_flatMap, foldl_foldl_flatMap, ← List.foldl_append, ← List.foldl_append]
  have hs : ∀ l : List SegmentRef, (l.flatMap segmentPoolRefs).map Prod.snd = (l.map Prod.snd).flatMap Segment.getAllValuePools := by
    intro l
    induction l with
    | nil => rfl
    | cons x l ih => simp [ih, segmentPoolRefs_snd]
  have hg : ∀ l : List GroupRef, (l.flatMap groupPoolRefs).map Prod.snd = (l.map Prod.snd).flatMap SegmentGroup.getAllValuePools := by
    intro l
    induction l with
    | nil => rfl
    | cons x l ih => simp [ih, groupPoolRefs_snd]
  rw [← segmentRefs_snd, ← groupRefs_snd, ← hs, ← hg, ← List.map_append]
  exact (foldl_addRef_snd _ _ _ ⟨rfl, rfl⟩).1

/-! ## the first one per discriminator -/

/-- without the test for equal contents, which never decides -/
structure PoolRefAcc.Inv (acc : PoolRefAcc) : Prop where
  added : ∀ d, d ∈ acc.added ↔ d ∈ acc.result.map fun x => x.2.discriminator

theorem PoolRefAcc.Inv.step {acc : PoolRefAcc} (h : acc.Inv) (x : ElementRef) :
    (addRefToResult acc x).Inv ∧ (addRefToResult acc x).result =
      if x.2.discriminator ∈ acc.added then acc.result else acc.result ++ [x] := by
  unfold addRefToResult
  split
  · exact ⟨h, rfl⟩
  · rename_i hd
    have hnr : x.2 ∉ acc.result.map Prod.snd := by
      intro hx
      obtain ⟨y, hy, he⟩ := List.mem_map.1 hx
      exact hd ((h.added _).2 (List.mem_map.2 ⟨y, hy, by rw [he]⟩))
    rw [if_pos hnr]
    refine ⟨⟨fun d => ?_⟩, rfl⟩
    simp only [List.mem_cons, h.added d, List.map_append, List.mem_append, List.map_cons, List.map_nil, List.not_mem_nil, or_false]
    exact or_comm

theorem PoolRefAcc.Inv.foldl {acc : PoolRefAcc} (h : acc.Inv) (l : List ElementRef) :
    (l.foldl addRefToResult acc).Inv ∧
    ∀ d, d ∈ (l.foldl addRefToResult acc).added ↔ d ∈ acc.added ∨ ∃ x ∈ l, x.2.discriminator = d := by
  induction l generalizing acc with
  | nil => exact ⟨h, by simp⟩
  | cons x l ih =>
    obtain ⟨h1, h2⟩ := h.step x
    obtain ⟨h3, h4⟩ := ih h1
    refine ⟨h3, fun d => ?_⟩
    rw [List.foldl_cons, h4]
    have : d ∈ (addRefToResult acc x).added ↔ d ∈ acc.added ∨ x.2.discriminator = d := by
      rw [h1.added, h2]
      split
      · rename_i hx
        rw [← h.added]
        exact ⟨.inl, fun h' => h'.elim id fun e => e ▸ hx⟩
      · rw [h.added]; simp [eq_comm]
    rw [this]
    simp only [List.mem_cons, exists_eq_or_imp, or_assoc]

/-- objects whose discriminators are known are ignored -/
theorem foldl_addRef_noop (acc : PoolRefAcc) (l : List ElementRef) (h : ∀ x ∈ l, x.2.discriminator ∈ acc.added) :
    l.foldl addRefToResult acc = acc := by
  induction l with
  | nil => rfl
  | cons x l ih =>
    rw [List.foldl_cons]
    have : addRefToResult acc x = acc := by unfold addRefToResult; rw [if_pos (h x (by simp))]
    rw [this]
    exact ih fun y hy => h y (by simp [hy])

/-- the value pools directly in a group -/
def ownPoolRefs (g : GroupRef) : List ElementRef :=
  (g.2.ownSegments.zipIdx.map fun x => ((g.1, x.2), x.1)).flatMap segmentPoolRefs

theorem groupPoolRefs_eq (p : List Nat) (g : SegmentGroup) : groupPoolRefs (p, g) =
    ownPoolRefs (p, g) ++ g.children.zipIdx.flatMap fun x => groupPoolRefs (p ++ [x.2], x.1) := by
  unfold groupPoolRefs ownPoolRefs
  rw [findSegmentRefs_eq, List.flatMap_append, List.flatMap_assoc]

/-- all value pools in the order in which they are searched -/
def searchOrder (l : List SegmentGroup) (n : Nat) : List ElementRef :=
  (l.zipIdx n).flatMap fun line =>
    (line.1.children.zipIdx.flatMap fun x => groupPoolRefs ([line.2, x.2], x.1)) ++ ownPoolRefs ([line.2], line.1)

theorem queryRefs_pools (g : SegmentGroup) : ∀ p, ∀ x ∈ g.queryRefs p, ∀ y ∈ groupPoolRefs x, y ∈ groupPoolRefs (p, g) := by
  induction g using SegmentGroup.induct with
  | h g ih =>
    intro p x hx y hy
    rw [queryRefs_eq, List.mem_cons] at hx
    rcases hx with rfl | hx
    · exact hy
    · obtain ⟨c, hc, hx⟩ := List.mem_flatMap.1 hx
      rw [groupPoolRefs_eq]
      refine List.mem_append_right _ (List.mem_flatMap.2 ⟨c, hc, ?_⟩)
      exact ih c.1 (List.fst_mem_of_mem_zipIdx hc) _ x hx y hy

/-- the discriminators of the value pools do not depend on the place -/
theorem ownPoolRefs_discriminators (g : SegmentGroup) (p q : List Nat) {x : ElementRef} (hx : x ∈ ownPoolRefs (p, g)) :
    ∃ y ∈ ownPoolRefs (q, g), y.2 = x.2 := by
  unfold ownPoolRefs at hx ⊢
  obtain ⟨s, hs, hx⟩ := List.mem_flatMap.1 hx
  obtain ⟨⟨s, i⟩, hsi, rfl⟩ := List.mem_map.1 hs
  unfold segmentPoolRefs at hx
  obtain ⟨⟨de, j⟩, hde, rfl⟩ := List.mem_map.1 hx
  refine ⟨(⟨q, i, j⟩, de), List.mem_flatMap.2 ⟨((q, i), s), List.mem_map.2 ⟨(s, i), hsi, rfl⟩, ?_⟩, rfl⟩
  unfold segmentPoolRefs
  exact List.mem_map.2 ⟨(de, j), hde, rfl⟩

theorem appendNewRefs_line (r : List GroupRef) (n : Nat) (line : SegmentGroup)
    (h : ∀ x ∈ line.children.flatMap (SegmentGroup.query fun _ => true), x ∈ r.map Prod.snd) :
    appendNewRefs r (line.queryRefs [n]) = if line ∈ r.map Prod.snd then r else r ++ [([n], line)] := by
  have noop : ∀ (xs r' : List GroupRef), (∀ x ∈ xs, x.2 ∈ r'.map Prod.snd) → appendNewRefs r' xs = r' := by
    intro xs
    induction xs with
    | nil => intro r' _; rfl
    | cons x xs ih =>
      intro r' hx
      have : appendNewRefs r' (x :: xs) = appendNewRefs r' xs := by
        unfold appendNewRefs
        rw [List.foldl_cons, if_pos (hx x (by simp))]
      rw [this]
      exact ih r' fun y hy => hx y (by simp [hy])
  have hrest : ∀ x ∈ line.children.zipIdx.flatMap (fun x => queryRefs ([n] ++ [x.2]) x.1), x.2 ∈ r.map Prod.snd := by
    intro x hx
    apply h
    have := List.mem_map_of_mem (f := Prod.snd) hx
    rwa [map_flatMap_zipIdx _ _ _ _ _ (fun c _ i => queryRefs_snd c _)] at this
  rw [queryRefs_eq]
  unfold appendNewRefs
  rw [List.foldl_cons]
  split
  · exact noop _ _ hrest
  · refine noop _ _ fun x hx => ?_
    have := hrest x hx
    simp only [List.map_append, List.mem_append]
    exact .inl this

theorem foldl_queryRefs (g : SegmentGroup) (p : List Nat) (acc : PoolRefAcc) (h : acc.Inv) :
    ((g.queryRefs p).flatMap groupPoolRefs).foldl addRefToResult acc = (groupPoolRefs (p, g)).foldl addRefToResult acc := by
  rw [queryRefs_eq, List.flatMap_cons, List.foldl_append]
  apply foldl_addRef_noop
  intro x hx
  obtain ⟨y, hy, hx⟩ := List.mem_flatMap.1 hx
  refine ((h.foldl _).2 _).2 (.inr ⟨x, ?_, rfl⟩)
  refine queryRefs_pools g p y ?_ x hx
  rw [queryRefs_eq]
  exact List.mem_cons_of_mem _ hy

theorem foldl_flatMap_congr {α : Type} (l : List α) (f g : α → List ElementRef) (acc : PoolRefAcc) (h : acc.Inv)
    (hfg : ∀ x ∈ l, ∀ acc : PoolRefAcc, acc.Inv → (f x).foldl addRefToResult acc = (g x).foldl addRefToResult acc) :
    (l.flatMap f).foldl addRefToResult acc = (l.flatMap g).foldl addRefToResult acc := by
  induction l generalizing acc with
  | nil => rfl
  | cons x l ih =>
    rw [List.flatMap_cons, List.flatMap_cons, List.foldl_append, List.foldl_append, hfg x (by simp) acc h]
    exact ih _ (h.foldl _).1 fun y hy => hfg y (by simp [hy])

theorem foldl_groupRefs (l : List SegmentGroup) : ∀ (n : Nat) (r : List GroupRef),
    (((l.zipIdx n).foldl groupRefsStep r).flatMap groupPoolRefs).foldl addRefToResult {} =
      (searchOrder l n).foldl addRefToResult ((r.flatMap groupPoolRefs).foldl addRefToResult {}) := by
  have inv0 : PoolRefAcc.Inv {} := ⟨by simp⟩
  induction l with
  | nil => intro n r; rfl
  | cons g l ih =>
    intro n r
    rw [List.zipIdx_cons, List.foldl_cons, ih]
    unfold searchOrder
    rw [List.zipIdx_cons, List.flatMap_cons, List.foldl_append]
    congr 1
    rw [groupRefsStep_eq]
    simp only
    rw [appendNewRefs_line]
    · have hmid : ((r ++ g.children.zipIdx.flatMap fun x => queryRefs [n, x.2] x.1).flatMap groupPoolRefs).foldl addRefToResult {} =
          (g.children.zipIdx.flatMap fun x => groupPoolRefs ([n, x.2], x.1)).foldl addRefToResult
            ((r.flatMap groupPoolRefs).foldl addRefToResult {}) := by
        rw [List.flatMap_append, List.foldl_append, List.flatMap_assoc]
        exact foldl_flatMap_congr _ _ _ _ (inv0.foldl _).1 fun x _ acc h => foldl_queryRefs x.1 _ acc h
      rw [List.foldl_append]
      split
      · rename_i hmem
        rw [hmid, foldl_addRef_noop _ (ownPoolRefs ([n], g))]
        intro x hx
        rw [← hmid]
        obtain ⟨⟨q, g'⟩, hq, rfl⟩ := List.mem_map.1 hmem
        obtain ⟨y, hy, he⟩ := ownPoolRefs_discriminators g' [n] q hx
        refine ((inv0.foldl _).2 _).2 (.inr ⟨y, List.mem_flatMap.2 ⟨(q, g'), hq, ?_⟩, by rw [he]⟩)
        rw [groupPoolRefs_eq]
        exact List.mem_append_left _ hy
      · rw [List.flatMap_append, List.foldl_append, hmid, List.flatMap_cons, List.flatMap_nil, List.append_nil, groupPoolRefs_eq,
          List.foldl_append]
        apply foldl_addRef_noop
        intro x hx
        have hi := (inv0.foldl (r.flatMap groupPoolRefs)).1
        refine (((hi.foldl _).1.foldl _).2 _).2 (.inl (((hi.foldl _).2 _).2 (.inr ⟨x, hx, rfl⟩)))
    · intro x hx
      rw [List.map_append, map_flatMap_zipIdx _ _ _ _ _ (fun c _ i => queryRefs_snd c _)]
      exact List.mem_append_right _ hx

/-- `get_all_value_pools` keeps the first value pool per discriminator -/
theorem getAllValuePoolRefs_searchOrder (a : DeepAhb) :
    a.getAllValuePoolRefs = ((searchOrder a.lines 0).foldl addRefToResult {}).result := by
  have inv0 : PoolRefAcc.Inv {} := ⟨by simp⟩
  unfold DeepAhb.getAllValuePoolRefs
  simp only
  rw [foldl_foldl_flatMap, foldl_foldl_flatMap]
  unfold DeepAhb.segmentRefs
  simp only
  rw [List.flatMap_append, List.flatMap_assoc, List.foldl_append]
  have h1 : (a.groupRefs.flatMap fun x => (x.2.findSegmentRefs x.1).flatMap segmentPoolRefs).foldl addRefToResult {} =
      (searchOrder a.lines 0).foldl addRefToResult {} := foldl_groupRefs a.lines 0 []
  rw [h1]
  have hi := inv0.foldl (searchOrder a.lines 0)
  rw [foldl_addRef_noop _ (List.flatMap _ (List.flatMap _ _)), foldl_addRef_noop _ (List.flatMap groupPoolRefs _)]
  · intro x hx
    rw [← h1]
    exact ((inv0.foldl _).2 _).2 (.inr ⟨x, hx, rfl⟩)
  · intro x hx
    refine (hi.2 _).2 (.inr ⟨x, ?_, rfl⟩)
    rw [List.flatMap_assoc] at hx
    obtain ⟨line, hl, hx⟩ := List.mem_flatMap.1 hx
    unfold searchOrder
    refine List.mem_flatMap.2 ⟨line, hl, List.mem_append_right _ ?_⟩
    unfold ownPoolRefs
    cases hs : line.1.segments with
    | none => rw [hs] at hx; cases hx
    | some ss => rw [hs] at hx; simpa [ownSegments, hs] using hx

/-! ## membership and order -/

theorem mem_zipIdx_iff {α : Type} (l : List α) (x : α) (i : Nat) : (x, i) ∈ l.zipIdx ↔ l[i]? = some x := by
  rw [List.mem_zipIdx_iff_getElem?]

theorem mem_ownPoolRefs (p : List Nat) (g : SegmentGroup) (x : ElementRef) : x ∈ ownPoolRefs (p, g) ↔
    ∃ i j s de, x = (⟨p, i, j⟩, de) ∧ g.ownSegments[i]? = some s ∧ s.dataElements[j]? = some de ∧ de.isValuePool = true := by
  unfold ownPoolRefs segmentPoolRefs
  simp only [List.mem_flatMap, List.mem_map, List.mem_filter]
  constructor
  · rintro ⟨_, ⟨⟨s, i⟩, hs, rfl⟩, ⟨de, j⟩, ⟨hde, hp⟩, rfl⟩
    exact ⟨i, j, s, de, rfl, (mem_zipIdx_iff _ _ _).1 hs, (mem_zipIdx_iff _ _ _).1 hde, hp⟩
  · rintro ⟨i, j, s, de, rfl, hs, hde, hp⟩
    exact ⟨_, ⟨(s, i), (mem_zipIdx_iff _ _ _).2 hs, rfl⟩, (de, j), ⟨(mem_zipIdx_iff _ _ _).2 hde, hp⟩, rfl⟩

theorem mem_groupPoolRefs (g : SegmentGroup) : ∀ (p : List Nat) (x : ElementRef), x ∈ groupPoolRefs (p, g) ↔
    ∃ r h, g.at? r = some h ∧ x ∈ ownPoolRefs (p ++ r, h) := by
  induction g using SegmentGroup.induct with
  | h g ih =>
    intro p x
    rw [groupPoolRefs_eq, List.mem_append, List.mem_flatMap]
    constructor
    · rintro (h | ⟨⟨c, i⟩, hc, hx⟩)
      · exact ⟨[], g, at?_nil g, by simpa using h⟩
      · obtain ⟨r, h, hr, hx⟩ := (ih c (List.fst_mem_of_mem_zipIdx hc) _ x).1 hx
        refine ⟨i :: r, h, ?_, by simpa using hx⟩
        rw [at?_cons]
        simp only [groupAt?]
        rw [(mem_zipIdx_iff _ _ _).1 hc]
        exact hr
    · rintro ⟨r, h, hr, hx⟩
      cases r with
      | nil => rw [at?_nil] at hr; cases hr; left; simpa using hx
      | cons i r =>
        rw [at?_cons] at hr
        simp only [groupAt?] at hr
        cases hc : g.children[i]? with
        | none => rw [hc] at hr; cases hr
        | some c =>
          rw [hc] at hr
          refine .inr ⟨(c, i), (mem_zipIdx_iff _ _ _).2 hc, ?_⟩
          exact (ih c (List.mem_of_getElem? hc) _ x).2 ⟨r, h, hr, by simpa using hx⟩

theorem mem_searchOrder (l : List SegmentGroup) (place : ElementAddr) (de : DataElement) :
    (place, de) ∈ searchOrder l 0 ↔ elementAt? l place = some de ∧ de.isValuePool = true := by
  unfold searchOrder elementAt?
  rw [List.mem_flatMap]
  constructor
  · rintro ⟨⟨line, n⟩, hl, hx⟩
    rw [mem_zipIdx_iff] at hl
    have key : ∃ r h, groupAt? l (n :: r) = some h ∧ (place, de) ∈ ownPoolRefs (n :: r, h) := by
      rcases List.mem_append.1 hx with hx | hx
      · obtain ⟨⟨c, i⟩, hc, hx⟩ := List.mem_flatMap.1 hx
        obtain ⟨r, h, hr, hx⟩ := (mem_groupPoolRefs c _ _).1 hx
        refine ⟨i :: r, h, ?_, by simpa using hx⟩
        simp only [groupAt?]
        rw [hl, Option.bind_some, at?_cons]
        simp only [groupAt?]
        rw [(mem_zipIdx_iff _ _ _).1 hc]
        exact hr
      · exact ⟨[], line, by simp [groupAt?, hl, at?_nil], hx⟩
    obtain ⟨r, h, hr, hx⟩ := key
    obtain ⟨i, j, s, de', he, hs, hde, hp⟩ := (mem_ownPoolRefs _ _ _).1 hx
    cases he
    simp only
    rw [hr, Option.bind_some, hs, Option.bind_some]
    exact ⟨hde, hp⟩
  · rintro ⟨h, hp⟩
    obtain ⟨p, i, j⟩ := place
    simp only at h
    cases p with
    | nil => cases h
    | cons n r =>
      cases hg : groupAt? l (n :: r) with
      | none => rw [hg] at h; cases h
      | some g =>
        rw [hg, Option.bind_some] at h
        cases hs : g.ownSegments[i]? with
        | none => rw [hs] at h; cases h
        | some s =>
          rw [hs, Option.bind_some] at h
          have hown : ((⟨n :: r, i, j⟩, de) : ElementRef) ∈ ownPoolRefs (n :: r, g) := (mem_ownPoolRefs _ _ _).2 ⟨i, j, s, de, rfl, hs, h, hp⟩
          simp only [groupAt?] at hg
          cases hl : l[n]? with
          | none => rw [hl] at hg; cases hg
          | some line =>
            rw [hl, Option.bind_some] at hg
            refine ⟨(line, n), (mem_zipIdx_iff _ _ _).2 hl, ?_⟩
            cases r with
            | nil => rw [at?_nil] at hg; cases hg; exact List.mem_append_right _ hown
            | cons k r =>
              rw [at?_cons] at hg
              simp only [groupAt?] at hg
              cases hc : line.children[k]? with
              | none => rw [hc] at hg; cases hg
              | some c =>
                rw [hc, Option.bind_some] at hg
                refine List.mem_append_left _ (List.mem_flatMap.2 ⟨(c, k), (mem_zipIdx_iff _ _ _).2 hc, ?_⟩)
                exact (mem_groupPoolRefs _ _ _).2 ⟨r, g, hg, by simpa using hown⟩

/-- document order of the places -/
def PlaceBefore (x y : ElementAddr) : Prop :=
  x.group < y.group ∨ x.group = y.group ∧ (x.segment < y.segment ∨ x.segment = y.segment ∧ x.element < y.element)

theorem pairwise_zipIdx {α : Type} (l : List α) (n : Nat) : (l.zipIdx n).Pairwise fun x y => x.2 < y.2 := by
  induction l generalizing n with
  | nil => exact .nil
  | cons x l ih =>
    rw [List.zipIdx_cons]
    refine .cons (fun y hy => ?_) (ih _)
    have := List.le_snd_of_mem_zipIdx hy
    simp only; omega

theorem segmentPoolRefs_pairwise (s : SegmentRef) : (segmentPoolRefs s).Pairwise fun x y => PlaceBefore x.1 y.1 := by
  unfold segmentPoolRefs
  rw [List.pairwise_map]
  refine ((pairwise_zipIdx _ _).filter _).imp fun h => ?_
  exact .inr ⟨rfl, .inr ⟨rfl, h⟩⟩

theorem ownPoolRefs_pairwise (g : GroupRef) : (ownPoolRefs g).Pairwise fun x y => PlaceBefore x.1 y.1 := by
  unfold ownPoolRefs
  rw [List.pairwise_flatMap]
  refine ⟨fun s _ => segmentPoolRefs_pairwise s, ?_⟩
  rw [List.pairwise_map]
  refine (pairwise_zipIdx _ _).imp fun h x hx y hy => ?_
  unfold segmentPoolRefs at hx hy
  obtain ⟨_, _, rfl⟩ := List.mem_map.1 hx
  obtain ⟨_, _, rfl⟩ := List.mem_map.1 hy
  exact .inr ⟨rfl, .inl h⟩

theorem groupPoolRefs_group {p : List Nat} {g : SegmentGroup} {x : ElementRef} (h : x ∈ groupPoolRefs (p, g)) : ∃ r, x.1.group = p ++ r := by
  obtain ⟨r, h, _, hx⟩ := (mem_groupPoolRefs g p x).1 h
  obtain ⟨i, j, s, de, rfl, _⟩ := (mem_ownPoolRefs _ _ _).1 hx
  exact ⟨r, rfl⟩

theorem ownPoolRefs_group {g : GroupRef} {x : ElementRef} (h : x ∈ ownPoolRefs g) : x.1.group = g.1 := by
  obtain ⟨i, j, s, de, rfl, _⟩ := (mem_ownPoolRefs _ _ _).1 h
  rfl

theorem append_lt_append (p : List Nat) {q r : List Nat} (h : q < r) : p ++ q < p ++ r := by
  induction p with
  | nil => exact h
  | cons x p ih => exact List.Lex.cons ih

theorem lt_append_cons (p : List Nat) (k : Nat) (r : List Nat) : p < p ++ k :: r := by
  have := append_lt_append p (q := []) (r := k :: r) List.Lex.nil
  simpa using this

theorem groupPoolRefs_pairwise (g : SegmentGroup) : ∀ p, (groupPoolRefs (p, g)).Pairwise fun x y => PlaceBefore x.1 y.1 := by
  induction g using SegmentGroup.induct with
  | h g ih =>
    intro p
    rw [groupPoolRefs_eq, List.pairwise_append]
    refine ⟨ownPoolRefs_pairwise _, ?_, ?_⟩
    · rw [List.pairwise_flatMap]
      refine ⟨fun c hc => ih c.1 (List.fst_mem_of_mem_zipIdx hc) _, ?_⟩
      refine (pairwise_zipIdx _ _).imp fun h x hx y hy => ?_
      obtain ⟨r, hr⟩ := groupPoolRefs_group hx
      obtain ⟨r', hr'⟩ := groupPoolRefs_group hy
      left
      rw [hr, hr', List.append_assoc, List.append_assoc]
      exact append_lt_append p (List.Lex.rel h)
    · intro x hx y hy
      obtain ⟨c, hc, hy⟩ := List.mem_flatMap.1 hy
      obtain ⟨r, hr⟩ := groupPoolRefs_group hy
      left
      rw [ownPoolRefs_group hx, hr, List.append_assoc]
      exact lt_append_cons p c.2 r

theorem PlaceBefore.searched {n k : Nat} {p q : List Nat} {x y : ElementAddr} (hx : x.group = n :: k :: p) (hy : y.group = n :: q)
    (h : PlaceBefore x y) : SearchedBefore x y := by
  obtain ⟨g, i, j⟩ := x
  obtain ⟨g', i', j'⟩ := y
  simp only at hx hy
  subst hx
  subst hy
  rcases h with h | ⟨h, h1 | ⟨h1, h2⟩⟩
  · refine .group _ _ _ _ _ _ _ _ ?_
    rcases h with _ | _ | h
    · rename_i h; exact absurd h (Nat.lt_irrefl _)
    · assumption
  · simp only at h h1; rw [h]; exact .segment _ _ _ _ _ h1
  · simp only at h h1 h2; rw [h, h1]; exact .element _ _ _ _ h2

theorem searchOrder_pairwise (l : List SegmentGroup) (m : Nat) : (searchOrder l m).Pairwise fun x y => SearchedBefore x.1 y.1 := by
  unfold searchOrder
  have hgroup : ∀ (line : SegmentGroup × Nat) (x : ElementRef),
      x ∈ (line.1.children.zipIdx.flatMap fun x => groupPoolRefs ([line.2, x.2], x.1)) → ∃ k p, x.1.group = line.2 :: k :: p := by
    intro line x hx
    obtain ⟨c, hc, hx⟩ := List.mem_flatMap.1 hx
    obtain ⟨r, hr⟩ := groupPoolRefs_group hx
    exact ⟨c.2, r, hr⟩
  have hown : ∀ (line : SegmentGroup × Nat) (x : ElementRef), x ∈ ownPoolRefs ([line.2], line.1) → x.1.group = [line.2] :=
    fun line x hx => ownPoolRefs_group hx
  rw [List.pairwise_flatMap]
  constructor
  · intro line _
    rw [List.pairwise_append]
    refine ⟨?_, ?_, ?_⟩
    · have hp : (line.1.children.zipIdx.flatMap fun x => groupPoolRefs ([line.2, x.2], x.1)).Pairwise fun x y => PlaceBefore x.1 y.1 := by
        have := groupPoolRefs_pairwise line.1 [line.2]
        rw [groupPoolRefs_eq, List.pairwise_append] at this
        exact this.2.1
      refine hp.imp_of_mem fun {x y} hx hy h => ?_
      obtain ⟨k, p, hk⟩ := hgroup line x hx
      obtain ⟨k', p', hk'⟩ := hgroup line y hy
      exact h.searched hk hk'
    · refine (ownPoolRefs_pairwise _).imp_of_mem fun {x y} hx hy h => ?_
      have h1 := hown line x hx
      have h2 := hown line y hy
      obtain ⟨⟨g, i, j⟩, _⟩ := x
      obtain ⟨⟨g', i', j'⟩, _⟩ := y
      simp only at h1 h2
      subst h1
      subst h2
      rcases h with h | ⟨h, h1 | ⟨h1, h2⟩⟩
      · exact absurd h (List.lt_irrefl _)
      · exact .segment _ _ _ _ _ h1
      · simp only at h1 h2; rw [h1]; exact .element _ _ _ _ h2
    · intro x hx y hy
      obtain ⟨k, p, hk⟩ := hgroup line x hx
      have h2 := hown line y hy
      obtain ⟨⟨g, i, j⟩, _⟩ := x
      obtain ⟨⟨g', i', j'⟩, _⟩ := y
      simp only at hk h2
      subst hk
      subst h2
      exact .below _ _ _ _ _ _ _
  · refine (pairwise_zipIdx _ _).imp fun {line line'} h x hx y hy => ?_
    have head : ∀ (line : SegmentGroup × Nat) (x : ElementRef),
        x ∈ (line.1.children.zipIdx.flatMap fun x => groupPoolRefs ([line.2, x.2], x.1)) ++ ownPoolRefs ([line.2], line.1) →
        ∃ p, x.1.group = line.2 :: p := by
      intro line x hx
      rcases List.mem_append.1 hx with hx | hx
      · obtain ⟨k, p, hk⟩ := hgroup line x hx; exact ⟨_, hk⟩
      · exact ⟨[], hown line x hx⟩
    obtain ⟨p, hp⟩ := head _ _ hx
    obtain ⟨q, hq⟩ := head _ _ hy
    obtain ⟨⟨g, i, j⟩, _⟩ := x
    obtain ⟨⟨g', i', j'⟩, _⟩ := y
    simp only at hp hq
    subst hp
    subst hq
    exact .line _ _ _ _ _ _ _ _ h

theorem PlaceBefore.irrefl (x : ElementAddr) : ¬ PlaceBefore x x := by
  rintro (h | ⟨_, h | ⟨_, h⟩⟩)
  · exact List.lt_irrefl _ h
  · exact absurd h (Nat.lt_irrefl _)
  · exact absurd h (Nat.lt_irrefl _)

theorem SearchedBefore.asymm {x y : ElementAddr} (h : SearchedBefore x y) : ¬ SearchedBefore y x := by
  have asl : ∀ {p q : List Nat}, p < q → ¬ q < p := fun h h' => List.lt_asymm h h'
  intro h'
  cases h with
  | line n m p q i j i' j' hn =>
    cases h' with
    | line _ _ _ _ _ _ _ _ hm => omega
    | below => omega
    | group => omega
    | segment => omega
    | element => omega
  | below n k p i j i' j' =>
    cases h' with
    | line _ _ _ _ _ _ _ _ hm => omega
  | group n k p q i j i' j' hq =>
    cases h' with
    | line _ _ _ _ _ _ _ _ hm => omega
    | group _ _ _ _ _ _ _ _ hq' => exact asl hq hq'
    | segment => exact List.lt_irrefl _ hq
    | element => exact List.lt_irrefl _ hq
  | segment g i j i' j' hi =>
    cases h' with
    | line _ _ _ _ _ _ _ _ hm => omega
    | group _ _ _ _ _ _ _ _ hq' => exact List.lt_irrefl _ hq'
    | segment _ _ _ _ _ hm => omega
    | element _ _ _ _ hm => omega
  | element g i j j' hj =>
    cases h' with
    | line _ _ _ _ _ _ _ _ hm => omega
    | group _ _ _ _ _ _ _ _ hq' => exact List.lt_irrefl _ hq'
    | segment _ _ _ _ _ hm => omega
    | element _ _ _ _ hm => omega

/-- the first per discriminator, of a list sorted by a strict order -/
theorem foldl_addRef_first (l : List ElementRef) (hp : l.Pairwise fun x y => SearchedBefore x.1 y.1) :
    ((l.foldl addRefToResult {}).result.Sublist l) ∧
    ∀ x, x ∈ (l.foldl addRefToResult {}).result ↔
      x ∈ l ∧ ∀ y ∈ l, y.2.discriminator = x.2.discriminator → y = x ∨ SearchedBefore x.1 y.1 := by
  have inv0 : PoolRefAcc.Inv {} := ⟨by simp⟩
  induction l using List.reverseRecOn with
  | nil => simp
  | append_singleton l z ih =>
    rw [List.pairwise_append] at hp
    obtain ⟨hp1, _, hp2⟩ := hp
    obtain ⟨h1, h2⟩ := ih hp1
    obtain ⟨hi, hd⟩ := inv0.foldl l
    have hz : ∀ x ∈ l, SearchedBefore x.1 z.1 := fun x hx => hp2 x hx z (by simp)
    rw [List.foldl_append, List.foldl_cons, List.foldl_nil, (hi.step z).2]
    split
    · rename_i hin
      rw [hd] at hin
      obtain ⟨w, hw, hwd⟩ := hin.resolve_left (by simp)
      refine ⟨h1.trans (List.sublist_append_left _ _), fun x => ?_⟩
      rw [h2]
      constructor
      · rintro ⟨hx, hall⟩
        refine ⟨List.mem_append_left _ hx, fun y hy he => ?_⟩
        rcases List.mem_append.1 hy with hy | hy
        · exact hall y hy he
        · rw [List.mem_singleton.1 hy]; exact .inr (hz x hx)
      · rintro ⟨hx, hall⟩
        rcases List.mem_append.1 hx with hx | hx
        · exact ⟨hx, fun y hy he => hall y (List.mem_append_left _ hy) he⟩
        · obtain rfl := List.mem_singleton.1 hx
          rcases hall w (List.mem_append_left _ hw) hwd with rfl | hb
          · exact absurd (hz _ hw) (hz _ hw).asymm
          · exact absurd (hz _ hw) hb.asymm
    · rename_i hin
      rw [hd] at hin
      refine ⟨h1.append (List.Sublist.refl _), fun x => ?_⟩
      rw [List.mem_append, h2, List.mem_singleton]
      constructor
      · rintro (⟨hx, hall⟩ | rfl)
        · refine ⟨List.mem_append_left _ hx, fun y hy he => ?_⟩
          rcases List.mem_append.1 hy with hy | hy
          · exact hall y hy he
          · rw [List.mem_singleton.1 hy]; exact .inr (hz x hx)
        · refine ⟨by simp, fun y hy he => ?_⟩
          rcases List.mem_append.1 hy with hy | hy
          · exact absurd (.inr ⟨y, hy, he⟩) hin
          · exact .inl (List.mem_singleton.1 hy)
      · rintro ⟨hx, hall⟩
        rcases List.mem_append.1 hx with hx | hx
        · exact .inl ⟨hx, fun y hy he => hall y (List.mem_append_left _ hy) he⟩
        · exact .inr (List.mem_singleton.1 hx)

end Verif
