import Verif.Spec.Placement
import Verif.Props.TemplatePath
/-!
# The group in which a segment is placed
-/

namespace Verif

/-! ## positions in the document -/

theorem documentOrder_group {l : List SegmentGroup} {g : SegmentGroup} (h : GroupOccurs l g) :
    ∃ A C, documentOrder l = A ++ g.docItems ++ C := by
  obtain ⟨a, ha⟩ := h
  induction a generalizing l with
  | nil => cases ha
  | cons i a ih =>
    simp only [groupAt?] at ha
    cases hc : l[i]? with
    | none => rw [hc] at ha; cases ha
    | some c =>
      rw [hc, Option.bind_some] at ha
      obtain ⟨l1, l2, rfl⟩ := List.append_of_mem (List.mem_of_getElem? hc)
      cases a with
      | nil =>
        rw [at?_nil] at ha
        cases ha
        exact ⟨documentOrder l1, documentOrder l2, by simp [documentOrder]⟩
      | cons j a =>
        rw [at?_cons] at ha
        obtain ⟨A, C, h⟩ := ih ha
        refine ⟨documentOrder l1 ++ c.header :: (c.ownSegments.flatMap Segment.docItems ++ A), C ++ documentOrder l2, ?_⟩
        have : documentOrder (l1 ++ c :: l2) = documentOrder l1 ++ (c.docItems ++ documentOrder l2) := by simp [documentOrder]
        rw [this, SegmentGroup.docItems_eq, h]
        simp

theorem documentOrder_segment {l : List SegmentGroup} {g : SegmentGroup} {s : Segment} (h : GroupOccurs l g) (hs : s ∈ g.ownSegments) :
    ∃ A M C, documentOrder l = A ++ g.header :: (M ++ s.header :: (s.dataElements.map .dataElement ++ C)) ∧ ∀ z ∈ M, ¬ z.IsGroup := by
  obtain ⟨A, C, h⟩ := documentOrder_group h
  obtain ⟨l1, l2, hl⟩ := List.append_of_mem hs
  refine ⟨A, l1.flatMap Segment.docItems, l2.flatMap Segment.docItems ++ documentOrder g.children ++ C, ?_, ?_⟩
  · rw [h, SegmentGroup.docItems_eq, hl]
    simp [Segment.docItems]
  · rintro z hz ⟨d, e, i, rfl⟩
    simp only [List.mem_flatMap, Segment.docItems, Segment.header, List.mem_cons, List.mem_map] at hz
    obtain ⟨_, _, hz | ⟨_, _, hz⟩⟩ := hz <;> cases hz

/-! ## positions in what is created -/

theorem usedBefore_snoc (reader : MigLookup) (runs : List Run) (r : Run) :
    usedBefore reader (runs ++ [r]) = r.usedAfter reader (usedBefore reader runs) := by
  simp [usedBefore]

theorem createdItems_snoc (reader : MigLookup) (posStr) (runs : List Run) (r : Run) :
    ∀ used, createdItems reader posStr used (runs ++ [r]) = createdItems reader posStr used runs ++
      r.created reader posStr (runs.foldl (fun u r => r.usedAfter reader u) used) := by
  induction runs with
  | nil => intro used; simp [createdItems]
  | cons x runs ih => intro used; simp [createdItems, ih]

theorem createdItems_append (reader : MigLookup) (posStr) (a b : List Run) :
    ∀ used, createdItems reader posStr used (a ++ b) = createdItems reader posStr used a ++
      createdItems reader posStr (a.foldl (fun u r => r.usedAfter reader u) used) b := by
  induction a with
  | nil => intro used; simp [createdItems]
  | cons x runs ih => intro used; simp [createdItems, ih]

/-- how many items the first `n` runs create -/
def countCreated (reader : MigLookup) (posStr : AhbLocation → PyStr) (runs : List Run) (n : Nat) : Nat :=
  (createdItems reader posStr [] (runs.take n)).length

theorem countCreated_mono (reader : MigLookup) (posStr) (runs : List Run) {n m : Nat} (h : n ≤ m) :
    countCreated reader posStr runs n ≤ countCreated reader posStr runs m := by
  unfold countCreated
  have : runs.take m = runs.take n ++ (runs.drop n).take (m - n) := by
    rw [← List.take_add, Nat.add_sub_cancel' h]
  rw [this, createdItems_append, List.length_append]
  omega

/-- what run `n` creates stands after the items of the runs before it -/
theorem createdBy_position {reader : MigLookup} {posStr} {runs : List Run} {n : Nat} {r : Run} (hr : runs[n]? = some r) (i : Nat) (x : DocItem)
    (hx : (r.created reader posStr (usedBefore reader (runs.take n)))[i]? = some x) :
    (createdItems reader posStr [] runs)[countCreated reader posStr runs n + i]? = some x ∧
      countCreated reader posStr runs n + i < countCreated reader posStr runs (n + 1) := by
  have hn := (List.getElem?_eq_some_iff.1 hr).1
  have ht : runs.take (n + 1) = runs.take n ++ [r] := by
    rw [List.take_succ_eq_append_getElem hn, (List.getElem?_eq_some_iff.1 hr).2]
  have hc : createdItems reader posStr [] (runs.take (n + 1)) = createdItems reader posStr [] (runs.take n) ++
      r.created reader posStr (usedBefore reader (runs.take n)) := by
    rw [ht, createdItems_snoc]; rfl
  have hi := (List.getElem?_eq_some_iff.1 hx).1
  constructor
  · have : createdItems reader posStr [] runs = createdItems reader posStr [] (runs.take (n + 1)) ++
        createdItems reader posStr ((runs.take (n + 1)).foldl (fun u r => r.usedAfter reader u) []) (runs.drop (n + 1)) := by
      rw [← createdItems_append, List.take_append_drop]
    rw [this, hc, List.append_assoc, List.getElem?_append_right (by simp [countCreated])]
    unfold countCreated
    rw [Nat.add_sub_cancel_left, List.getElem?_append_left hi, hx]
  · unfold countCreated
    rw [hc, List.length_append]
    omega

/-- every position belongs to a run -/
theorem position_createdBy {reader : MigLookup} {posStr} {runs : List Run} {p : Nat} {x : DocItem}
    (h : (createdItems reader posStr [] runs)[p]? = some x) :
    ∃ n r i, runs[n]? = some r ∧ (r.created reader posStr (usedBefore reader (runs.take n)))[i]? = some x ∧
      p = countCreated reader posStr runs n + i := by
  have key : ∀ N, N ≤ runs.length → p < countCreated reader posStr runs N →
      ∃ n, n < N ∧ countCreated reader posStr runs n ≤ p ∧ p < countCreated reader posStr runs (n + 1) := by
    intro N
    induction N with
    | zero => intro _ h; simp [countCreated, createdItems] at h
    | succ N ih =>
      intro hN h
      by_cases hp : p < countCreated reader posStr runs N
      · obtain ⟨n, h1, h2⟩ := ih (by omega) hp
        exact ⟨n, by omega, h2⟩
      · exact ⟨N, by omega, by omega, h⟩
  have hp := (List.getElem?_eq_some_iff.1 h).1
  obtain ⟨n, hn, h1, h2⟩ := key runs.length (Nat.le_refl _) (by unfold countCreated; rwa [List.take_length])
  have hr : runs[n]? = some runs[n] := List.getElem?_eq_getElem hn
  have hlen : (runs[n].created reader posStr (usedBefore reader (runs.take n))).length =
      countCreated reader posStr runs (n + 1) - countCreated reader posStr runs n := by
    unfold countCreated
    rw [List.take_succ_eq_append_getElem hn, createdItems_snoc, List.length_append]
    simp [usedBefore]
  have hi : p - countCreated reader posStr runs n < (runs[n].created reader posStr (usedBefore reader (runs.take n))).length := by omega
  have hx := List.getElem?_eq_getElem hi
  have hpos := (createdBy_position hr _ _ hx).1
  rw [Nat.add_sub_cancel' h1, h] at hpos
  exact ⟨n, runs[n], p - countCreated reader posStr runs n, hr, by rw [hx, hpos], by omega⟩

/-- in a run, a group comes first -/
theorem created_group_first {reader : MigLookup} {posStr} {r : Run} {used : List PyStr} {i : Nat} {x : DocItem}
    (h : (r.created reader posStr used)[i]? = some x) (hx : x.IsGroup) : i = 0 := by
  obtain ⟨d, e, k, rfl⟩ := hx
  unfold Run.created at h
  split at h
  · cases h
  · split at h
    · unfold Run.createdDataElement at h
      split at h
      · split at h
        · cases i <;> simp at h
        · simp at h
      · simp at h
    · have hseg : ∀ j : Nat, ((r.createdSegment reader posStr).toList)[j]? ≠ some (DocItem.group d e k) := by
        intro j
        unfold Run.createdSegment
        split
        · cases j <;> simp
        · simp
      cases hg : r.openedGroup reader used with
      | none => rw [hg] at h; exact absurd h (hseg i)
      | some g =>
        rw [hg] at h
        cases i with
        | zero => rfl
        | succ i => exact absurd (by simpa using h) (hseg i)

/-- in a run, a segment is at the end -/
theorem created_segment_last {reader : MigLookup} {posStr} {r : Run} {used : List PyStr} {i j : Nat} {x y : DocItem}
    (h : (r.created reader posStr used)[i]? = some x) (hx : x.IsSegment) (hy : (r.created reader posStr used)[j]? = some y) : j ≤ i := by
  obtain ⟨d, e, k, n, s, rfl⟩ := hx
  unfold Run.created at h hy
  split at h
  · cases h
  · rename_i hh
    rw [if_neg hh] at hy
    split at h
    · unfold Run.createdDataElement at h
      split at h
      · split at h
        · cases i <;> simp at h
        · simp at h
      · simp at h
    · rename_i hd
      rw [if_neg hd] at hy
      have hj := (List.getElem?_eq_some_iff.1 hy).1
      have hop : ∀ g, r.openedGroup reader used = some g → g.IsGroup := by
        intro g hg
        unfold Run.openedGroup at hg
        split at hg
        · cases hg; exact ⟨_, _, _, rfl⟩
        · cases hg
      cases hg : r.openedGroup reader used with
      | none =>
        rw [hg] at h hj
        cases hs : r.createdSegment reader posStr with
        | none => rw [hs] at hj; simp at hj
        | some s => rw [hs] at hj; simp at hj; omega
      | some g =>
        rw [hg] at h hj
        cases i with
        | zero =>
          obtain ⟨_, _, _, rfl⟩ := hop g hg
          simp at h
        | succ i =>
          cases hs : r.createdSegment reader posStr with
          | none => rw [hs] at hj; simp at hj; omega
          | some s => rw [hs] at hj; simp at hj; omega

theorem created_dataElement_single {reader : MigLookup} {posStr} {r : Run} {used : List PyStr} {i j : Nat} {de : DataElement} {y : DocItem}
    (h : (r.created reader posStr used)[i]? = some (.dataElement de)) (hy : (r.created reader posStr used)[j]? = some y) : i = j := by
  unfold Run.created at h hy
  split at h
  · cases h
  · rename_i hh
    rw [if_neg hh] at hy
    split at h
    · rename_i hd
      rw [if_pos hd] at hy
      have hi := (List.getElem?_eq_some_iff.1 h).1
      have hj := (List.getElem?_eq_some_iff.1 hy).1
      cases hs : r.createdDataElement reader with
      | none => rw [hs] at hj; simp at hj
      | some s => rw [hs] at hi hj; simp at hi hj; omega
    · exfalso
      have := List.mem_of_getElem? h
      rcases List.mem_append.1 this with h | h
      · unfold Run.openedGroup at h
        split at h <;> simp at h
      · unfold Run.createdSegment at h
        split at h <;> simp at h

/-- two items with nothing of a kind in between -/
theorem createdBy_between {reader : MigLookup} {posStr} {runs : List Run} {A M C : List DocItem} {x y : DocItem}
    (h : createdItems reader posStr [] runs = A ++ x :: (M ++ y :: C)) {P : DocItem → Prop} (hM : ∀ z ∈ M, ¬ P z) {n i m j : Nat} {r r' : Run}
    (hr : runs[n]? = some r) (hx : (r.created reader posStr (usedBefore reader (runs.take n)))[i]? = some x)
    (hr' : runs[m]? = some r') (hy : (r'.created reader posStr (usedBefore reader (runs.take m)))[j]? = some y)
    (hp : A.length = countCreated reader posStr runs n + i) (hq : A.length + 1 + M.length = countCreated reader posStr runs m + j) :
    n ≤ m ∧ (∀ k z, n < k → k < m → CreatedBy reader posStr runs k z → ¬ P z) ∧
      (n < m → ∀ j' z, j' < j → (r'.created reader posStr (usedBefore reader (runs.take m)))[j']? = some z → ¬ P z) := by
  have hn := (createdBy_position hr i x hx).2
  have hm := (createdBy_position hr' j y hy).2
  have between : ∀ p z, A.length < p → p < A.length + 1 + M.length → (createdItems reader posStr [] runs)[p]? = some z → ¬ P z := by
    intro p z h1 h2 hz
    refine hM z ?_
    rw [h, List.getElem?_append_right (by omega)] at hz
    obtain ⟨q, hq⟩ : ∃ q, p - A.length = q + 1 := ⟨p - A.length - 1, by omega⟩
    rw [hq, List.getElem?_cons_succ, List.getElem?_append_left (by omega)] at hz
    exact List.mem_of_getElem? hz
  refine ⟨?_, ?_, ?_⟩
  · apply Nat.le_of_not_lt
    intro hlt
    have := countCreated_mono reader posStr runs (show m + 1 ≤ n by omega)
    omega
  · intro k z h1 h2 hz
    obtain ⟨r'', hk, hz⟩ := hz
    obtain ⟨l, hl⟩ := List.getElem?_of_mem hz
    obtain ⟨h3, h4⟩ := createdBy_position hk l z hl
    have a1 := countCreated_mono reader posStr runs (show n + 1 ≤ k by omega)
    have a2 := countCreated_mono reader posStr runs (show k + 1 ≤ m by omega)
    exact between _ z (by omega) (by omega) h3
  · intro hlt j' z hj hz
    obtain ⟨h3, _⟩ := createdBy_position hr' j' z hz
    have a1 := countCreated_mono reader posStr runs (show n + 1 ≤ m by omega)
    exact between _ z (by omega) (by omega) h3

/-- a segment is in the group that was opened last -/
theorem createdBy_segment {reader : MigLookup} {posStr} {runs : List Run} {A M C : List DocItem} {x y : DocItem}
    (h : createdItems reader posStr [] runs = A ++ x :: (M ++ y :: C)) (hM : ∀ z ∈ M, ¬ z.IsGroup) (hy : y.IsSegment) :
    ∃ n m, n ≤ m ∧ CreatedBy reader posStr runs n x ∧ CreatedBy reader posStr runs m y ∧
      ∀ k z, n < k → k ≤ m → CreatedBy reader posStr runs k z → ¬ z.IsGroup := by
  obtain ⟨n, r, i, hr, hx, hp⟩ := position_createdBy (p := A.length) (x := x) (by rw [h]; simp)
  obtain ⟨m, r', j, hr', hy', hq⟩ := position_createdBy (p := A.length + 1 + M.length) (x := y) (by
    rw [h, Nat.add_assoc, List.getElem?_append_right (by omega)]
    simp [Nat.add_comm 1])
  obtain ⟨h1, h2, h3⟩ := createdBy_between h hM hr hx hr' hy' hp hq
  refine ⟨n, m, h1, ⟨r, hr, List.mem_of_getElem? hx⟩, ⟨r', hr', List.mem_of_getElem? hy'⟩, ?_⟩
  intro k z hk hkm hz hzg
  rcases Nat.lt_or_eq_of_le hkm with hlt | rfl
  · exact h2 k z hk hlt hz hzg
  · obtain ⟨r'', hr'', hz⟩ := hz
    rw [hr'] at hr''
    cases hr''
    obtain ⟨l, hl⟩ := List.getElem?_of_mem hz
    have h0 := created_group_first hl hzg
    subst h0
    cases j with
    | zero =>
      rw [hl] at hy'
      obtain ⟨_, _, _, _, _, rfl⟩ := hy
      obtain ⟨_, _, _, rfl⟩ := hzg
      cases hy'
    | succ j => exact h3 hk 0 z (by omega) hl hzg

/-- a data element is in the segment that was created last -/
theorem createdBy_dataElement {reader : MigLookup} {posStr} {runs : List Run} {A M M' C : List DocItem} {x y : DocItem} {de : DataElement}
    (h : createdItems reader posStr [] runs = A ++ x :: (M ++ y :: (M' ++ .dataElement de :: C))) (hM : ∀ z ∈ M, ¬ z.IsGroup)
    (hM' : ∀ z ∈ M', ¬ (z.IsGroup ∨ z.IsSegment)) (hy : y.IsSegment) :
    ∃ n m k, n ≤ m ∧ m < k ∧ CreatedBy reader posStr runs n x ∧ CreatedBy reader posStr runs m y ∧
      CreatedBy reader posStr runs k (.dataElement de) ∧
      (∀ l z, n < l → l ≤ m → CreatedBy reader posStr runs l z → ¬ z.IsGroup) ∧
      ∀ l z, m < l → l ≤ k → CreatedBy reader posStr runs l z → ¬ (z.IsGroup ∨ z.IsSegment) := by
  have h' : createdItems reader posStr [] runs = (A ++ x :: M) ++ y :: (M' ++ .dataElement de :: C) := by rw [h]; simp
  obtain ⟨n, r, i, hr, hx, hp⟩ := position_createdBy (p := A.length) (x := x) (by rw [h]; simp)
  obtain ⟨m, r', j, hr', hy', hq⟩ := position_createdBy (p := A.length + 1 + M.length) (x := y) (by
    rw [h, Nat.add_assoc, List.getElem?_append_right (by omega)]
    simp [Nat.add_comm 1])
  have hAM : (A ++ x :: M).length = A.length + 1 + M.length := by simp; omega
  obtain ⟨k, r'', l, hr'', hz, ht⟩ := position_createdBy (p := (A ++ x :: M).length + 1 + M'.length) (x := .dataElement de) (by
    rw [h', Nat.add_assoc, List.getElem?_append_right (by omega)]
    simp [Nat.add_comm 1])
  obtain ⟨a1, a2, a3⟩ := createdBy_between h hM hr hx hr' hy' hp hq
  obtain ⟨b1, b2, b3⟩ := createdBy_between h' hM' hr' hy' hr'' hz (by omega) ht
  have hlt : m < k := by
    rcases Nat.lt_or_eq_of_le b1 with hlt | rfl
    · exact hlt
    · exfalso
      rw [hr'] at hr''
      cases hr''
      have := created_dataElement_single hz hy'
      subst this
      rw [hz] at hy'
      obtain ⟨_, _, _, _, _, rfl⟩ := hy
      cases hy'
  refine ⟨n, m, k, a1, hlt, ⟨r, hr, List.mem_of_getElem? hx⟩, ⟨r', hr', List.mem_of_getElem? hy'⟩,
    ⟨r'', hr'', List.mem_of_getElem? hz⟩, ?_, ?_⟩
  · intro q z hk hkm hz hzg
    rcases Nat.lt_or_eq_of_le hkm with hlt | rfl
    · exact a2 q z hk hlt hz hzg
    · obtain ⟨s, hs, hz⟩ := hz
      rw [hr'] at hs
      cases hs
      obtain ⟨l, hl⟩ := List.getElem?_of_mem hz
      have h0 := created_group_first hl hzg
      subst h0
      cases j with
      | zero =>
        rw [hl] at hy'
        obtain ⟨_, _, _, _, _, rfl⟩ := hy
        obtain ⟨_, _, _, rfl⟩ := hzg
        cases hy'
      | succ j => exact a3 hk 0 z (by omega) hl hzg
  · intro q z hk hkm hzq hzg
    rcases Nat.lt_or_eq_of_le hkm with hlt | rfl
    · exact b2 q z hk hlt hzq hzg
    · obtain ⟨s, hs, hzq⟩ := hzq
      rw [hr''] at hs
      cases hs
      obtain ⟨t, ht'⟩ := List.getElem?_of_mem hzq
      have := created_dataElement_single hz ht'
      subst this
      rw [hz] at ht'
      cases ht'
      rcases hzg with ⟨_, _, _, h⟩ | ⟨_, _, _, _, _, h⟩ <;> cases h

/-! ## paths -/

theorem nameInPath_unique {above : List Xml} {e : Xml} {n m : PyStr} (hn : NameInPath above e n) (hm : NameInPath above e m) : n = m := by
  obtain ⟨b, x, a, h1, h2, h3⟩ := hn
  obtain ⟨b', x', a', h1', h2', h3'⟩ := hm
  rw [h1] at h1'
  rcases List.append_eq_append_iff.1 h1' with ⟨c, hc, hd⟩ | ⟨c, hc, hd⟩
  · cases c with
    | nil =>
      simp at hd
      obtain ⟨rfl, rfl⟩ := hd
      exact nameOf_unique h2 h2'
    | cons y c =>
      simp at hd
      exact absurd ⟨_, h2'⟩ (h3 x' (by rw [hd.2]; simp))
  · cases c with
    | nil =>
      simp at hd
      obtain ⟨rfl, rfl⟩ := hd
      exact nameOf_unique h2 h2'
    | cons y c =>
      simp at hd
      exact absurd ⟨_, h2⟩ (h3' x (by rw [hd.2]; simp))

/-- the path to an element begins with the path to an element above it -/
theorem leadsTo_prefix {root : Xml} {d d' : PyStr} {p q : List Nat} {es fs : List Xml} (h : LeadsTo root d p es)
    (h' : LeadsTo root d' (p ++ q) fs) : d <+: d' := by
  obtain ⟨hp, ns, hn, hns, rfl⟩ := h
  obtain ⟨hq, ms, hm, hms, rfl⟩ := h'
  have ht := lineage_take hq
  rw [hp] at ht
  have hes := Option.some.inj ht
  have hlp := lineage_length hp
  have hlq := lineage_length hq
  rw [List.length_append] at hlq
  have hnm : ns = ms.take p.length := by
    apply List.ext_getElem?
    intro i
    by_cases hi : i < p.length
    · have e1 : es[i]? = some es[i] := List.getElem?_eq_getElem (by omega)
      have n1 : ns[i]? = some ns[i] := List.getElem?_eq_getElem (by omega)
      have m1 : ms[i]? = some ms[i] := List.getElem?_eq_getElem (by omega)
      have f1 : fs[i]? = some es[i] := by
        rw [← e1, hes, List.getElem?_take_of_lt hi]
      have t1 : fs.take i = es.take i := by
        rw [hes, List.take_take, Nat.min_eq_left (by omega)]
      have a := hns i _ _ e1 n1
      have b := hms i _ _ f1 m1
      rw [t1] at b
      rw [n1, List.getElem?_take_of_lt hi, m1, nameInPath_unique a b]
    · rw [List.getElem?_eq_none (by omega), List.getElem?_eq_none (by rw [List.length_take]; omega)]
  have hzip : ns.zip es = (ms.zip fs).take p.length := by
    rw [List.zip, List.take_zipWith, ← hnm, ← hes]
  refine ⟨((ms.zip fs).drop p.length).flatMap fun s : PyStr × Xml =>
    py!"[\"" ++ s.1 ++ py!"\"]" ++ if s.2.tag = py!"class" then py!"[0]" else [], ?_⟩
  unfold templatePath
  rw [List.append_assoc, hzip, ← List.flatMap_append, List.take_append_drop]

/-- same layers: the element found for the one location is above the element found for the other -/
theorem found_layers {document : Xml} {loc loc' : AhbLocation} {p q : List Nat} {e e' : Xml} (h : Found document loc p e)
    (h' : Found document loc' q e') (hl : loc'.layers = loc.layers) (hd : loc.dataElementId = none) :
    (∃ t, q = p ++ t) ∧ (loc'.dataElementId = none → q = p) := by
  obtain ⟨layer, p1, c1, h1, h2, h3⟩ := h
  obtain ⟨layer', p1', c1', h1', h2', h3'⟩ := h'
  rw [hl] at h2'
  obtain ⟨rfl, rfl⟩ := walk_unique h2 h2'
  have hp : p = p1 := by
    rcases h3 with ⟨_, h, _⟩ | ⟨_, _, _, _, h, _⟩
    · exact h
    · rw [hd] at h; cases h
  subst hp
  rcases h3' with ⟨_, h, _⟩ | ⟨d, p2, seg, i, hd', _, _, _, h⟩
  · exact ⟨⟨[], by simp [h]⟩, fun _ => h⟩
  · refine ⟨⟨p2 ++ [i], by simp [h]⟩, fun hn => ?_⟩
    rw [hd'] at hn
    cases hn

theorem run_no_dataElement {sgh : Sgh} {flat : FlatAhb} {located : List (AhbLine × AhbLocation)}
    (hl : determineLocations sgh flat.lines = .ok located) {r : Run} (hr : r ∈ runsOf located) (hnd : r.hasDataElement = false)
    {loc : AhbLocation} (hwhere : loc = r.location ∨ ∃ x ∈ r.2, loc = x.2) : loc.dataElementId = none := by
  obtain ⟨pre, post, hlines, hne, hsame, _⟩ := run_slice hl r hr
  obtain ⟨first, hfirst⟩ := List.exists_mem_of_ne_nil _ hne
  rw [(run_location_eq hr hwhere).2, ← hsame first hfirst]
  cases hf : first.dataElement with
  | none => rfl
  | some x =>
    unfold Run.hasDataElement at hnd
    rw [List.any_eq_false] at hnd
    exact absurd (by rw [hf]; rfl) (hnd first hfirst)

end Verif
