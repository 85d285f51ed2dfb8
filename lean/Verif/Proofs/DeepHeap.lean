import Verif.Spec.DeepHeap
/-!
# Proofs: `to_deep_ahb` with references behaves like `to_deep_ahb` with addresses (C118)
-/

namespace Verif

theorem heapSet_self {α : Type} (heap : Nat → α) (r : Nat) (x : α) : heapSet heap r x r = x := by simp [heapSet]

theorem heapSet_ne {α : Type} (heap : Nat → α) {r i : Nat} (x : α) (h : i ≠ r) : heapSet heap r x i = heap i := by simp [heapSet, h]

/-- the segments of the group whose list of segments has the number `r` -/
def Heap.readSegments (h : Heap) (r : Nat) : List Segment := (h.segmentLists r).map h.readSegment

/-- invariant: `G` groups and `S` segments are in the tree; the list of groups `a` has the address `π a`, the segment `s` is at the position
`(σ s).2` of the group `(σ s).1` -/
structure HeapInv (π : Nat → GroupPath) (σ : Nat → Nat × Nat) (G S : Nat) (h : Heap) : Prop where
  root : π 0 = []
  child : ∀ a ≤ G, ∀ i k : Nat, (h.groupLists a)[i]? = some k → k < G ∧ a ≤ k ∧ π (k + 1) = π a ++ [i]
  cell : ∀ k < G, (h.groups k).segments = k ∧ (h.groups k).segmentGroups = k + 1
  owner : ∀ k < G, ∃ a : Nat, a ≤ k ∧ ∃ i : Nat, (h.groupLists a)[i]? = some k
  segment : ∀ g < G, ∀ i s : Nat, (h.segmentLists g)[i]? = some s → s < S ∧ σ s = (g, i)
  segmentCell : ∀ s < S, (h.segments s).dataElements = s ∧ (σ s).1 < G ∧ (h.segmentLists (σ s).1)[(σ s).2]? = some s

theorem HeapInv.owner' {π : Nat → GroupPath} {σ : Nat → Nat × Nat} {G S : Nat} {h : Heap} (inv : HeapInv π σ G S h) {k : Nat} (hk : k < G) :
    ∃ a i : Nat, a ≤ k ∧ (h.groupLists a)[i]? = some k ∧ π (k + 1) = π a ++ [i] := by
  obtain ⟨a, ha, i, hi⟩ := inv.owner k hk
  exact ⟨a, i, ha, hi, (inv.child a (by omega) i k hi).2.2⟩

theorem HeapInv.path_inj {π : Nat → GroupPath} {σ : Nat → Nat × Nat} {G S : Nat} {h : Heap} (inv : HeapInv π σ G S h) :
    ∀ a b : Nat, a ≤ G → b ≤ G → π a = π b → a = b := by
  intro a
  induction a using Nat.strongRecOn with
  | _ a ih =>
    intro b ha hb hab
    cases a with
    | zero =>
      cases b with
      | zero => rfl
      | succ l =>
        obtain ⟨d, j, _, _, hp⟩ := inv.owner' (k := l) (by omega)
        rw [inv.root, hp] at hab
        simp at hab
    | succ k =>
      obtain ⟨c, i, hc, hci, hp⟩ := inv.owner' (k := k) (by omega)
      cases b with
      | zero =>
        rw [inv.root, hp] at hab
        simp at hab
      | succ l =>
        obtain ⟨d, j, hd, hdj, hq⟩ := inv.owner' (k := l) (by omega)
        rw [hp, hq] at hab
        obtain ⟨h1, h2⟩ := List.append_inj' hab rfl
        have h3 := ih c (by omega) d (by omega) (by omega) h1
        injection h2 with h2 _
        subst h3 h2
        rw [hci] at hdj
        injection hdj with hdj
        omega

theorem HeapInv.path_length {π : Nat → GroupPath} {σ : Nat → Nat × Nat} {G S : Nat} {h : Heap} (inv : HeapInv π σ G S h) :
    ∀ a : Nat, a ≤ G → (π a).length ≤ a := by
  intro a
  induction a using Nat.strongRecOn with
  | _ a ih =>
    intro ha
    cases a with
    | zero => simp [inv.root]
    | succ k =>
      obtain ⟨c, i, hc, _, hp⟩ := inv.owner' (k := k) (by omega)
      have := ih c (by omega) (by omega)
      rw [hp]
      simp
      omega

/-- the group number `k`, its groups read down to the given depth -/
def Heap.readGroup (h : Heap) (depth : Nat) (k : Nat) : SegmentGroup :=
  .mk (h.groups k).discriminator (h.groups k).ahbExpression (h.groups k).ahbLineIndex (some (h.readSegments (h.groups k).segments))
    (some (h.readGroups depth (h.groups k).segmentGroups))

theorem readGroups_succ (h : Heap) (n a : Nat) : h.readGroups (n + 1) a = (h.groupLists a).map (h.readGroup n) := rfl

theorem readGroups_getElem? (h : Heap) (n a i : Nat) :
    (h.readGroups (n + 1) a)[i]? = ((h.groupLists a)[i]?).map (h.readGroup n) := by
  rw [readGroups_succ, List.getElem?_map]

theorem groupsAt_snoc' (l : List SegmentGroup) (p : GroupPath) (i : Nat) :
    groupsAt l (p ++ [i]) = (groupsAt l p).bind fun gs => (gs[i]?).bind SegmentGroup.segmentGroups := by
  induction p generalizing l with
  | nil =>
    simp only [List.nil_append, groupsAt, Option.bind_some]
    cases l[i]? with
    | none => rfl
    | some g =>
      simp only [Option.bind_some]
      cases g.segmentGroups <;> rfl
  | cons j p ih =>
    simp only [List.cons_append, groupsAt]
    cases l[j]? with
    | none => rfl
    | some g =>
      simp only [Option.bind_some]
      cases g.segmentGroups with
      | none => rfl
      | some gs => simp only [Option.bind_some, ih]

theorem HeapInv.groupsAt_path {π : Nat → GroupPath} {σ : Nat → Nat × Nat} {G S : Nat} {h : Heap} (inv : HeapInv π σ G S h) (n : Nat) :
    ∀ b : Nat, b ≤ G → (π b).length < n → groupsAt (h.readGroups n 0) (π b) = some (h.readGroups (n - (π b).length) b) := by
  intro b
  induction b using Nat.strongRecOn with
  | _ b ih =>
    intro hb hn
    cases b with
    | zero => simp [inv.root, groupsAt]
    | succ k =>
      obtain ⟨c, i, hc, hci, hp⟩ := inv.owner' (k := k) (by omega)
      rw [hp] at hn ⊢
      simp only [List.length_append, List.length_cons, List.length_nil] at hn ⊢
      rw [groupsAt_snoc', ih c (by omega) (by omega) (by omega)]
      obtain ⟨m, hm⟩ : ∃ m : Nat, n - (π c).length = m + 1 := ⟨n - (π c).length - 1, by omega⟩
      rw [hm, Option.bind_some, readGroups_getElem?, hci]
      simp only [Option.map_some, Option.bind_some, Heap.readGroup, SegmentGroup.segmentGroups]
      rw [(inv.cell k (by omega)).2]
      congr 2
      omega

/-! ## changes at one list of groups -/

/-- outside of the list of groups `b`, the heaps are the same -/
def SameExceptAt (G b : Nat) (h h' : Heap) : Prop :=
  ∀ c ≤ G, c ≠ b → h'.groupLists c = h.groupLists c ∧ ∀ k ∈ h.groupLists c, h'.groups k = h.groups k ∧
    h'.readSegments (h.groups k).segments = h.readSegments (h.groups k).segments

theorem HeapInv.read_unchanged {π : Nat → GroupPath} {σ : Nat → Nat × Nat} {G S : Nat} {h h' : Heap} (inv : HeapInv π σ G S h) {b : Nat}
    (same : SameExceptAt G b h h') : ∀ n a : Nat, a ≤ G → ¬ π a <+: π b → h'.readGroups n a = h.readGroups n a := by
  intro n
  induction n with
  | zero => intros; rfl
  | succ n ih =>
    intro a ha hnot
    have hab : a ≠ b := by
      intro e
      subst e
      exact hnot (List.prefix_refl _)
    obtain ⟨hl, hk⟩ := same a ha hab
    rw [readGroups_succ, readGroups_succ, hl]
    apply List.map_congr_left
    intro k hmem
    obtain ⟨hg, hs⟩ := hk k hmem
    obtain ⟨i, hi⟩ := List.getElem?_of_mem hmem
    obtain ⟨hkG, _, hp⟩ := inv.child a ha i k hi
    have hcell := inv.cell k hkG
    unfold Heap.readGroup
    rw [hg, hs, hcell.2, ih (k + 1) (by omega)]
    intro hpre
    rw [hp] at hpre
    exact hnot ((List.prefix_append _ _).trans hpre)

theorem HeapInv.read_changed {π : Nat → GroupPath} {σ : Nat → Nat × Nat} {G S : Nat} {h h' : Heap} (inv : HeapInv π σ G S h) {b : Nat}
    (hbG : b ≤ G) (same : SameExceptAt G b h h') (F : List SegmentGroup → List SegmentGroup)
    (hb : ∀ n, h'.readGroups (n + 1) b = F (h.readGroups (n + 1) b)) :
    ∀ (p : GroupPath) (n a : Nat), a ≤ G → π b = π a ++ p → p.length < n → h'.readGroups n a = modifyGroups F p (h.readGroups n a) := by
  intro p
  induction p with
  | nil =>
    intro n a ha hp hn
    rw [List.append_nil] at hp
    have := inv.path_inj b a hbG ha hp
    subst this
    obtain ⟨m, rfl⟩ : ∃ m : Nat, n = m + 1 := ⟨n - 1, by simp at hn; omega⟩
    rw [hb]
    rfl
  | cons i p ih =>
    intro n a ha hp hn
    obtain ⟨m, rfl⟩ : ∃ m : Nat, n = m + 1 := ⟨n - 1, by simp at hn; omega⟩
    have hab : a ≠ b := by
      intro e
      subst e
      have := congrArg List.length hp
      simp at this
    obtain ⟨hl, hk⟩ := same a ha hab
    simp only [modifyGroups]
    apply List.ext_getElem?
    intro j
    rw [List.getElem?_modify, readGroups_getElem?, readGroups_getElem?, hl]
    cases hj : (h.groupLists a)[j]? with
    | none => rfl
    | some k =>
      obtain ⟨hg, hs⟩ := hk k (List.mem_of_getElem? hj)
      obtain ⟨hkG, _, hpk⟩ := inv.child a ha j k hj
      have hcell := inv.cell k hkG
      simp only [Option.map_some]
      by_cases hij : i = j
      · subst hij
        simp only [if_true]
        have := ih m (k + 1) (by omega) (by rw [hp, hpk]; simp) (by simp at hn; omega)
        unfold Heap.readGroup
        rw [hg, hs, hcell.2, this]
        rfl
      · simp only [hij, if_false, id]
        unfold Heap.readGroup
        rw [hg, hs, hcell.2, inv.read_unchanged same m (k + 1) (by omega)]
        · rfl
        intro hpre
        rw [hpk, hp] at hpre
        have h2 := (List.prefix_append_right_inj _).1 hpre
        have h3 := (List.cons_prefix_cons.1 h2).1
        exact hij h3.symm

theorem HeapInv.read_same {π : Nat → GroupPath} {σ : Nat → Nat × Nat} {G S : Nat} {h h' : Heap} (inv : HeapInv π σ G S h)
    (same : ∀ c ≤ G, h'.groupLists c = h.groupLists c ∧ ∀ k ∈ h.groupLists c, h'.groups k = h.groups k ∧
      h'.readSegments (h.groups k).segments = h.readSegments (h.groups k).segments) :
    ∀ n a : Nat, a ≤ G → h'.readGroups n a = h.readGroups n a := by
  intro n
  induction n with
  | zero => intros; rfl
  | succ n ih =>
    intro a ha
    obtain ⟨hl, hk⟩ := same a ha
    rw [readGroups_succ, readGroups_succ, hl]
    apply List.map_congr_left
    intro k hmem
    obtain ⟨hg, hs⟩ := hk k hmem
    obtain ⟨i, hi⟩ := List.getElem?_of_mem hmem
    obtain ⟨hkG, _, _⟩ := inv.child a ha i k hi
    unfold Heap.readGroup
    rw [hg, hs, (inv.cell k hkG).2, ih (k + 1) (by omega)]

/-- appending a new, empty group to the list of groups `b` -/
theorem HeapInv.read_append {π : Nat → GroupPath} {σ : Nat → Nat × Nat} {G S : Nat} {h : Heap} (inv : HeapInv π σ G S h) {b : Nat}
    (hbG : b ≤ G) (hcell : (h.groups G).segments = G ∧ (h.groups G).segmentGroups = G + 1) (hempty : h.groupLists (G + 1) = [])
    (hsegs : h.segmentLists G = []) (n : Nat) (hn : (π b).length < n) :
    Heap.readGroups { h with groupLists := appendTo h.groupLists b G } n 0 =
      modifyGroups (· ++ [SegmentGroup.mk (h.groups G).discriminator (h.groups G).ahbExpression (h.groups G).ahbLineIndex (some []) (some [])])
        (π b) (h.readGroups n 0) := by
  have same : SameExceptAt G b h { h with groupLists := appendTo h.groupLists b G } := by
    intro c hc hcb
    exact ⟨heapSet_ne _ _ hcb, fun k _ => ⟨rfl, rfl⟩⟩
  refine inv.read_changed hbG same _ ?_ (π b) n 0 (Nat.zero_le _) (by simp [inv.root]) hn
  intro m
  rw [readGroups_succ, readGroups_succ]
  simp only [appendTo, heapSet_self, List.map_append, List.map_cons, List.map_nil]
  congr 1
  · apply List.map_congr_left
    intro k hmem
    obtain ⟨i, hi⟩ := List.getElem?_of_mem hmem
    obtain ⟨hkG, _, hp⟩ := inv.child b hbG i k hi
    have hc := inv.cell k hkG
    have hu := inv.read_unchanged same m (k + 1) (by omega) (by
      intro hpre
      rw [hp] at hpre
      have := hpre.length_le
      simp at this
      omega)
    unfold Heap.readGroup
    simp only [hc.2]
    simp only [appendTo] at hu
    rw [hu]
    rfl
  · have he : Heap.readGroups { h with groupLists := heapSet h.groupLists b (h.groupLists b ++ [G]) } m (G + 1) = [] := by
      cases m with
      | zero => rfl
      | succ m =>
        rw [readGroups_succ]
        have : heapSet h.groupLists b (h.groupLists b ++ [G]) (G + 1) = [] := by
          rw [heapSet_ne _ _ (by omega)]
          exact hempty
        simp only [this, List.map_nil]
    unfold Heap.readGroup
    simp only [hcell.1, hcell.2, he]
    simp [Heap.readSegments, hsegs]

/-- changing the segments of the group `g` -/
theorem HeapInv.read_segments {π : Nat → GroupPath} {σ : Nat → Nat × Nat} {G S : Nat} {h h' : Heap} (inv : HeapInv π σ G S h) {g : Nat}
    (hg : g < G) (hl : h'.groupLists = h.groupLists) (hgr : h'.groups = h.groups) (f : List Segment → List Segment)
    (hf : h'.readSegments g = f (h.readSegments g)) (hother : ∀ k < G, k ≠ g → h'.readSegments k = h.readSegments k) (n : Nat)
    (hn : (π (g + 1)).length ≤ n) : h'.readGroups n 0 = modifySegments f (π (g + 1)) (h.readGroups n 0) := by
  obtain ⟨a, i, hag, hai, hp⟩ := inv.owner' hg
  have same : SameExceptAt G a h h' := by
    intro c hc hca
    refine ⟨by rw [hl], fun k hk => ⟨by rw [hgr], ?_⟩⟩
    obtain ⟨j, hj⟩ := List.getElem?_of_mem hk
    obtain ⟨hkG, _, hpk⟩ := inv.child c hc j k hj
    rw [(inv.cell k hkG).1]
    apply hother k hkG
    intro e
    subst e
    rw [hpk] at hp
    obtain ⟨h1, _⟩ := List.append_inj' hp rfl
    exact hca (inv.path_inj c a hc (by omega) h1)
  rw [hp] at hn
  simp only [List.length_append, List.length_cons, List.length_nil] at hn
  simp only [modifySegments, hp, List.getLast?_append, List.getLast?_singleton, Option.some_or, List.dropLast_concat]
  refine inv.read_changed (b := a) (by omega) same _ ?_ (π a) n 0 (Nat.zero_le _) (by simp [inv.root]) (by omega)
  intro m
  apply List.ext_getElem?
  intro j
  rw [List.getElem?_modify, readGroups_getElem?, readGroups_getElem?, hl]
  cases hj : (h.groupLists a)[j]? with
  | none => rfl
  | some k =>
    obtain ⟨hkG, _, hpk⟩ := inv.child a (by omega) j k hj
    have hc := inv.cell k hkG
    have hu := inv.read_unchanged same m (k + 1) (by omega) (by
      intro hpre
      rw [hpk] at hpre
      have := hpre.length_le
      simp at this
      omega)
    simp only [Option.map_some]
    unfold Heap.readGroup
    rw [hgr, hc.2, hc.1, hu]
    by_cases hij : i = j
    · subst hij
      rw [hai] at hj
      injection hj with hj
      subst hj
      simp only [if_true, hf]
      rfl
    · simp only [hij, if_false, id]
      rw [hother k hkG]
      · rfl
      intro e
      subst e
      rw [hp] at hpk
      have := (List.append_inj' hpk rfl).2
      simp at this
      exact hij this

/-! ## the states are related -/

/-- the reference state `st` and the address state `ad` belong together, `G` groups and `S` segments being in the tree
(`segmentsHere` aside, which is assigned before the new group is in the tree) -/
structure HeapRelCore (π : Nat → GroupPath) (σ : Nat → Nat × Nat) (G S : Nat) (st : HeapState) (ad : DeepState) : Prop where
  inv : HeapInv π σ G S st.heap
  lines : ∀ n ≥ G + 1, st.heap.readGroups n 0 = ad.lines
  parents : ad.parentGroupLists = st.parentGroupLists.map π ∧ ∀ r ∈ st.parentGroupLists, r ≤ G
  sg : ad.sgHere = st.sgHere.map π ∧ ∀ r ∈ st.sgHere, r ≤ G
  dataElements : ad.dataElementsHere = st.dataElementsHere.map (fun s => (π ((σ s).1 + 1), (σ s).2)) ∧ ∀ s ∈ st.dataElementsHere, s < S
  used : ad.usedStacks = st.usedStacks
  previous : ad.previousPosition = st.previousPosition

/-- between two runs of the loop body -/
def HeapRel (st : HeapState) (ad : DeepState) : Prop :=
  ∃ (π : Nat → GroupPath) (σ : Nat → Nat × Nat), HeapRelCore π σ st.heap.groupCount st.heap.segmentCount st ad ∧
    ad.segmentsHere = st.segmentsHere.map (fun g => π (g + 1)) ∧ ∀ g ∈ st.segmentsHere, g < st.heap.groupCount

theorem SameResult.bind {α β γ δ : Type} {R : α → β → Prop} {Q : γ → δ → Prop} {x : PyRes α} {y : PyRes β} {f : α → PyRes γ} {g : β → PyRes δ}
    (h : SameResult R x y) (hf : ∀ a b, R a b → SameResult Q (f a) (g b)) : SameResult Q (x >>= f) (y >>= g) := by
  cases x with
  | error e =>
    cases y with
    | error e' => exact h
    | ok b => exact h.elim
  | ok a =>
    cases y with
    | error e' => exact h.elim
    | ok b => exact hf a b h

theorem SameResult.same {α : Type} (x : PyRes α) : SameResult (fun a b => a = b) x x := by
  cases x <;> exact rfl

/-- only these parts of the state change while the place for a new group is looked for -/
def SameBut (st st' : HeapState) : Prop :=
  st'.heap = st.heap ∧ st'.segmentsHere = st.segmentsHere

theorem popRefs_related {π : Nat → GroupPath} {σ : Nat → Nat × Nat} {G S : Nat} (n : Nat) : ∀ {st : HeapState} {ad : DeepState},
    HeapRelCore π σ G S st ad →
    SameResult (fun st' ad' => HeapRelCore π σ G S st' ad' ∧ SameBut st st') (popRefs n st) (popGroupLists n ad) := by
  induction n with
  | zero => intro st ad h; exact ⟨h, rfl, rfl⟩
  | succ n ih =>
    intro st ad h
    simp only [popRefs, popGroupLists]
    rw [h.parents.1, List.getLast?_map]
    cases hl : st.parentGroupLists.getLast? with
    | none => exact rfl
    | some r =>
      have hmem := List.mem_of_getLast? hl
      simp only [Option.map_some]
      refine ih ⟨h.inv, h.lines, ⟨?_, ?_⟩, ⟨rfl, ?_⟩, h.dataElements, h.used, h.previous⟩
      · exact (List.map_dropLast ..).symm
      · exact fun r' hr' => h.parents.2 r' (List.dropLast_subset _ hr')
      · intro r' hr'
        cases hr'
        exact h.parents.2 _ hmem

theorem pushRefs_related {π : Nat → GroupPath} {σ : Nat → Nat × Nat} {G S : Nat} (n : Nat) : ∀ {st : HeapState} {ad : DeepState},
    HeapRelCore π σ G S st ad →
    SameResult (fun st' ad' => HeapRelCore π σ G S st' ad' ∧ SameBut st st') (pushRefs n st) (pushGroupLists n ad) := by
  induction n with
  | zero => intro st ad h; exact ⟨h, rfl, rfl⟩
  | succ n ih =>
    intro st ad h
    simp only [pushRefs, pushGroupLists]
    rw [h.sg.1]
    cases hs : st.sgHere with
    | none => exact rfl
    | some r =>
      have hr : r ≤ G := h.sg.2 r hs
      have hlen := h.inv.path_length r hr
      obtain ⟨m, hm⟩ : ∃ m : Nat, G + 1 - (π r).length = m + 1 := ⟨G - (π r).length, by omega⟩
      have hat := h.inv.groupsAt_path (G + 1) r hr (by omega)
      rw [h.lines _ (Nat.le_refl _), hm, readGroups_succ] at hat
      simp only [Option.map_some, hat, List.isEmpty_map, List.length_map]
      cases hl : (st.heap.groupLists r).getLast? with
      | none =>
        rw [List.getLast?_eq_none_iff] at hl
        simp only [hl, List.isEmpty_nil, if_true]
        exact rfl
      | some k =>
        have hk : (st.heap.groupLists r)[(st.heap.groupLists r).length - 1]? = some k := by
          rw [← List.getLast?_eq_getElem?]
          exact hl
        obtain ⟨hkG, _, hp⟩ := h.inv.child r hr _ k hk
        have hne : (st.heap.groupLists r).isEmpty = false := by
          cases hx : st.heap.groupLists r with
          | nil => rw [hx] at hl; cases hl
          | cons _ _ => rfl
        simp only [hne, Bool.false_eq_true, if_false]
        refine ih ⟨h.inv, h.lines, ⟨?_, ?_⟩, ⟨?_, ?_⟩, h.dataElements, h.used, h.previous⟩
        · simp [h.parents.1]
        · intro r' hr'
          simp only [List.mem_append, List.mem_singleton] at hr'
          cases hr' with
          | inl h1 => exact h.parents.2 _ h1
          | inr h1 => subst h1; exact hr
        · simp [(h.inv.cell k hkG).2, hp]
        · intro r' hr'
          cases hr'
          rw [(h.inv.cell k hkG).2]
          omega

/-- the new group number `G` of the heap, which is not in the tree yet -/
structure FreshGroup (G : Nat) (g : SegmentGroup) (h : Heap) : Prop where
  cell : (h.groups G).segments = G ∧ (h.groups G).segmentGroups = G + 1
  noGroups : h.groupLists (G + 1) = []
  noSegments : h.segmentLists G = []
  value : g = .mk (h.groups G).discriminator (h.groups G).ahbExpression (h.groups G).ahbLineIndex (some []) (some [])
  count : h.groupCount = G + 1

/-- the group `G` is appended to the list of groups `b` -/
theorem append_related {π : Nat → GroupPath} {σ : Nat → Nat × Nat} {G : Nat} {st : HeapState} {ad : DeepState} {g : SegmentGroup} {b : Nat}
    (h : HeapRelCore π σ G st.heap.segmentCount st ad) (hb : b ≤ G) (hf : FreshGroup G g st.heap) (hs : st.segmentsHere = some G) :
    HeapRel { st with heap := { st.heap with groupLists := appendTo st.heap.groupLists b G },
                      parentGroupLists := st.parentGroupLists ++ [b], sgHere := some (st.heap.groups G).segmentGroups }
      { ad with lines := modifyGroups (· ++ [g]) (π b) ad.lines, parentGroupLists := ad.parentGroupLists ++ [π b],
                segmentsHere := some (π b ++ [(st.heap.groupLists b).length]), sgHere := some (π b ++ [(st.heap.groupLists b).length]) } := by
  have hπ : ∀ a : Nat, a ≤ G → heapSet π (G + 1) (π b ++ [(st.heap.groupLists b).length]) a = π a :=
    fun a ha => heapSet_ne _ _ (by omega)
  have hnew : heapSet π (G + 1) (π b ++ [(st.heap.groupLists b).length]) (G + 1) = π b ++ [(st.heap.groupLists b).length] := heapSet_self _ _ _
  have hlists : ∀ a : Nat, a ≠ b → appendTo st.heap.groupLists b G a = st.heap.groupLists a := fun a ha => heapSet_ne _ _ ha
  have hlistb : appendTo st.heap.groupLists b G b = st.heap.groupLists b ++ [G] := heapSet_self _ _ _
  refine ⟨heapSet π (G + 1) (π b ++ [(st.heap.groupLists b).length]), σ, ?_, ?_, ?_⟩
  · simp only [hf.count]
    refine ⟨⟨?_, ?_, ?_, ?_, ?_, ?_⟩, ?_, ⟨?_, ?_⟩, ⟨?_, ?_⟩, ⟨?_, ?_⟩, h.used, h.previous⟩
    · rw [hπ 0 (Nat.zero_le _)]
      exact h.inv.root
    · intro a ha i k hk
      simp only at hk
      by_cases hG : a = G + 1
      · subst hG
        rw [hlists _ (by omega), hf.noGroups] at hk
        cases hk
      · have haG : a ≤ G := by omega
        rw [hπ a haG]
        by_cases hab : a = b
        · subst hab
          rw [hlistb, List.getElem?_append] at hk
          split at hk
          · obtain ⟨h1, h2, h3⟩ := h.inv.child a haG i k hk
            exact ⟨by omega, h2, by rw [hπ _ (by omega)]; exact h3⟩
          · rename_i hlen
            have : i - (st.heap.groupLists a).length = 0 := by
              cases hx : i - (st.heap.groupLists a).length with
              | zero => rfl
              | succ n => rw [hx] at hk; simp at hk
            rw [this] at hk
            injection hk with hk
            subst hk
            refine ⟨by omega, haG, ?_⟩
            rw [hnew]
            congr 2
            omega
        · rw [hlists a hab] at hk
          obtain ⟨h1, h2, h3⟩ := h.inv.child a haG i k hk
          exact ⟨by omega, h2, by rw [hπ _ (by omega)]; exact h3⟩
    · intro k hk
      by_cases hkG : k = G
      · subst hkG
        exact hf.cell
      · exact h.inv.cell k (by omega)
    · intro k hk
      simp only
      by_cases hkG : k = G
      · subst hkG
        exact ⟨b, hb, (st.heap.groupLists b).length, by rw [hlistb]; simp⟩
      · obtain ⟨a, ha, i, hi⟩ := h.inv.owner k (by omega)
        refine ⟨a, ha, i, ?_⟩
        by_cases hab : a = b
        · subst hab
          rw [hlistb, List.getElem?_append]
          have := (List.getElem?_eq_some_iff.1 hi).1
          rw [if_pos this]
          exact hi
        · rw [hlists a hab]
          exact hi
    · intro k hk i s hi
      simp only at hi
      by_cases hkG : k = G
      · subst hkG
        rw [hf.noSegments] at hi
        cases hi
      · exact h.inv.segment k (by omega) i s hi
    · intro s hs'
      obtain ⟨h1, h2, h3⟩ := h.inv.segmentCell s hs'
      exact ⟨h1, by omega, h3⟩
    · intro n hn
      have := h.inv.path_length b hb
      have hr := h.inv.read_append hb hf.cell hf.noGroups hf.noSegments n (by omega)
      simp only [hf.count] at hr
      rw [← hf.value, h.lines n (by omega)] at hr
      exact hr
    · simp only [List.map_append, List.map_cons, List.map_nil, hπ b hb]
      rw [h.parents.1]
      congr 1
      apply List.map_congr_left
      intro r hr
      exact (hπ r (h.parents.2 r hr)).symm
    · intro r hr
      simp only [List.mem_append, List.mem_singleton] at hr
      cases hr with
      | inl h1 => exact Nat.le_succ_of_le (h.parents.2 r h1)
      | inr h1 => subst h1; omega
    · simp [hf.cell.2, hnew]
    · intro r hr
      cases hr
      rw [hf.cell.2]
      omega
    · rw [h.dataElements.1]
      simp only
      cases hd : st.dataElementsHere with
      | none => rfl
      | some s =>
        have hsS := h.dataElements.2 s hd
        obtain ⟨_, h2, _⟩ := h.inv.segmentCell s hsS
        simp only [Option.map_some]
        rw [hπ _ (by omega)]
    · exact h.dataElements.2
  · simp [hs, hnew]
  · intro g' hg'
    simp only at hg'
    rw [hs] at hg'
    cases hg'
    simp [hf.count]

theorem appendGroupRef_related {π : Nat → GroupPath} {σ : Nat → Nat × Nat} {G : Nat} {st : HeapState} {ad : DeepState} {g : SegmentGroup}
    (h : HeapRelCore π σ G st.heap.segmentCount st ad) (hf : FreshGroup G g st.heap) (hs : st.segmentsHere = some G) :
    SameResult HeapRel (appendGroupRef G st) (appendGroup g ad) := by
  unfold appendGroupRef appendGroup
  rw [h.sg.1]
  cases hr : st.sgHere with
  | none => exact rfl
  | some r =>
    have hrG := h.sg.2 r hr
    have hlen := h.inv.path_length r hrG
    obtain ⟨m, hm⟩ : ∃ m : Nat, G + 1 - (π r).length = m + 1 := ⟨G - (π r).length, by omega⟩
    have hat := h.inv.groupsAt_path (G + 1) r hrG (by omega)
    rw [h.lines _ (Nat.le_refl _), hm, readGroups_succ] at hat
    simp only [Option.map_some, hat, Option.getD_some, List.length_map]
    exact append_related h hrG hf hs

theorem insertGroupRef_related {π : Nat → GroupPath} {σ : Nat → Nat × Nat} {G : Nat} {st : HeapState} {ad : DeepState} {g : SegmentGroup}
    (position : AhbLocation)
    (h : HeapRelCore π σ G st.heap.segmentCount st ad) (hf : FreshGroup G g st.heap) (hs : st.segmentsHere = some G) :
    SameResult HeapRel (insertGroupRef G position st) (insertGroup g position ad) := by
  unfold insertGroupRef insertGroup
  have hd : g.discriminator = (st.heap.groups G).discriminator := by rw [hf.value]; rfl
  rw [hd]
  split
  · have := append_related (b := 0) h (Nat.zero_le _) hf hs
    have hl : ad.lines.length = (st.heap.groupLists 0).length := by
      rw [← h.lines (G + 1) (Nat.le_refl _), readGroups_succ, List.length_map]
    rw [hl]
    simp only [h.inv.root] at this
    exact this
  · rw [h.previous]
    cases st.previousPosition with
    | none => exact rfl
    | some previous =>
      simp only
      split
      · exact appendGroupRef_related h hf hs
      · refine SameResult.bind (SameResult.same _) ?_
        intro d _ e
        subst e
        refine SameResult.bind (popRefs_related _ h) ?_
        intro st1 ad1 ⟨h1, e1, s1⟩
        refine SameResult.bind (pushRefs_related _ h1) ?_
        intro st2 ad2 ⟨h2, e2, s2⟩
        rw [← e1, ← e2] at hf
        refine appendGroupRef_related (π := π) (σ := σ) ?_ hf (by rw [s2, s1]; exact hs)
        rw [e2, e1]
        exact h2

theorem newGroup_segmentGroup {d e i g} (h : SegmentGroup.new d e i (some []) (some []) = .ok g) :
    g.segments = some [] ∧ g.segmentGroups = some [] := by
  unfold SegmentGroup.new at h
  cases he : checkSegmentLevelExpression e with
  | error x => rw [he] at h; cases h
  | ok x =>
    rw [he] at h
    cases h
    exact ⟨rfl, rfl⟩

theorem maybeOpenGroupRef_related (firstLine lastLine : AhbLine) (position : AhbLocation) (stack : Option EdifactStack)
    {st : HeapState} {ad : DeepState} (h : HeapRel st ad) :
    SameResult HeapRel (maybeOpenGroupRef firstLine lastLine position stack st) (maybeOpenGroup firstLine lastLine position stack ad) := by
  unfold maybeOpenGroupRef maybeOpenGroup
  refine SameResult.bind (SameResult.same _) ?_
  intro lastLayer _ e
  subst e
  obtain ⟨π, σ, hc, hsg⟩ := h
  rw [hc.used]
  split
  · simp only
    have key : ∀ x : PyRes SegmentGroup, (∀ g, x = .ok g → g.segments = some [] ∧ g.segmentGroups = some []) →
        SameResult (fun a b => a = b ∧ a.segments = some [] ∧ a.segmentGroups = some []) x x := by
      intro x hx
      cases x with
      | error e => exact rfl
      | ok g => exact ⟨rfl, hx g rfl⟩
    refine SameResult.bind (key _ fun g hg => newGroup_segmentGroup hg) ?_
    intro g _ ⟨e, h1, h2⟩
    subst e
    refine insertGroupRef_related (π := π) (σ := σ) position ?_ ?_ ?_
    · refine ⟨⟨hc.inv.root, ?_, ?_, ?_, ?_, ?_⟩, ?_, hc.parents, hc.sg, hc.dataElements, ?_, hc.previous⟩
      · intro a ha i k hk
        simp only [Heap.newGroup, heapSet_ne st.heap.groupLists [] (show a ≠ st.heap.groupCount + 1 by omega)] at hk
        exact hc.inv.child a ha i k hk
      · intro k hk
        simp only [Heap.newGroup]
        rw [heapSet_ne _ _ (by omega)]
        exact hc.inv.cell k hk
      · intro k hk
        obtain ⟨a, ha, i, hi⟩ := hc.inv.owner k hk
        refine ⟨a, ha, i, ?_⟩
        simp only [Heap.newGroup]
        rw [heapSet_ne _ _ (by omega)]
        exact hi
      · intro k hk i s hi
        simp only [Heap.newGroup, heapSet_ne st.heap.segmentLists [] (show k ≠ st.heap.groupCount by omega)] at hi
        exact hc.inv.segment k hk i s hi
      · intro s hs
        obtain ⟨a1, a2, a3⟩ := hc.inv.segmentCell s hs
        refine ⟨a1, a2, ?_⟩
        simp only [Heap.newGroup]
        rw [heapSet_ne _ _ (by omega)]
        exact a3
      · intro n hn
        rw [← hc.lines n hn]
        refine hc.inv.read_same (fun c hcc => ⟨heapSet_ne _ _ (by omega), fun k hk => ?_⟩) n 0 (Nat.zero_le _)
        obtain ⟨i, hi⟩ := List.getElem?_of_mem hk
        obtain ⟨hkG, _, _⟩ := hc.inv.child c hcc i k hi
        refine ⟨heapSet_ne _ _ (by omega), ?_⟩
        rw [(hc.inv.cell k hkG).1]
        simp only [Heap.readSegments, Heap.newGroup]
        rw [heapSet_ne _ _ (by omega)]
        rfl
      · simp
    · refine ⟨?_, heapSet_self _ _ _, heapSet_self _ _ _, ?_, rfl⟩
      · simp [Heap.newGroup, heapSet_self]
      · simp only [Heap.newGroup, heapSet_self]
        cases g
        simp only [SegmentGroup.segments, SegmentGroup.segmentGroups] at h1 h2
        subst h1 h2
        rfl
    · simp [Heap.newGroup, heapSet_self]
  · exact ⟨π, σ, hc, hsg⟩

/-- the segments of the group `g` as seen with addresses -/
theorem HeapRelCore.segments_seen {π : Nat → GroupPath} {σ : Nat → Nat × Nat} {G S : Nat} {st : HeapState} {ad : DeepState}
    (h : HeapRelCore π σ G S st ad) {g : Nat} (hg : g < G) :
    (((groupsAt ad.lines (π (g + 1)).dropLast).getD [])[(π (g + 1)).getLast?.getD 0]?).bind SegmentGroup.segments =
      some (st.heap.readSegments g) := by
  obtain ⟨a, i, hag, hai, hp⟩ := h.inv.owner' hg
  have hlen := h.inv.path_length a (by omega)
  obtain ⟨m, hm⟩ : ∃ m : Nat, G + 1 - (π a).length = m + 1 := ⟨G - (π a).length, by omega⟩
  have hat := h.inv.groupsAt_path (G + 1) a (by omega) (by omega)
  rw [h.lines _ (Nat.le_refl _), hm] at hat
  rw [hp, List.dropLast_concat, hat, List.getLast?_append]
  simp only [List.getLast?_singleton, Option.some_or, Option.getD_some]
  rw [readGroups_getElem?, hai]
  simp only [Option.map_some, Option.bind_some, Heap.readGroup, SegmentGroup.segments, (h.inv.cell g hg).1]

theorem createSegmentRef_related (posStr : AhbLocation → PyStr) (lines : List AhbLine) (firstLine : AhbLine) (position : AhbLocation)
    (stack : Option EdifactStack) {st : HeapState} {ad : DeepState} (h : HeapRel st ad) :
    SameResult HeapRel (createSegmentRef posStr lines firstLine position stack st) (createSegment posStr lines firstLine position stack ad) := by
  unfold createSegmentRef createSegment
  cases lines.find? fun l => truthy l.ahbExpression with
  | none => exact h
  | some expressionLine =>
    simp only
    have key : ∀ x : PyRes Segment, (∀ s, x = .ok s → s.dataElements = []) → SameResult (fun a b => a = b ∧ a.dataElements = []) x x := by
      intro x hx
      cases x with
      | error e => exact rfl
      | ok g => exact ⟨rfl, hx g rfl⟩
    refine SameResult.bind (key _ fun s hs => ?_) ?_
    · unfold Segment.new at hs
      cases he : checkSegmentLevelExpression expressionLine.ahbExpression with
      | error x => rw [he] at hs; cases hs
      | ok x =>
        rw [he] at hs
        cases hs
        rfl
    intro segment _ ⟨e, hempty⟩
    subst e
    obtain ⟨π, σ, hc, hsg, hsG⟩ := h
    rw [hsg]
    cases hr : st.segmentsHere with
    | none => exact rfl
    | some r =>
      have hrG := hsG r hr
      simp only [Option.map_some]
      rw [hc.segments_seen hrG]
      simp only [Option.getD_some]
      have hlen : (st.heap.readSegments r).length = (st.heap.segmentLists r).length := by simp [Heap.readSegments]
      rw [hlen]
      have hσ : ∀ s : Nat, s < st.heap.segmentCount → heapSet σ st.heap.segmentCount (r, (st.heap.segmentLists r).length) s = σ s :=
        fun s hs => heapSet_ne _ _ (by omega)
      have hself : heapSet σ st.heap.segmentCount (r, (st.heap.segmentLists r).length) st.heap.segmentCount =
        (r, (st.heap.segmentLists r).length) := heapSet_self _ _ _
      have hlists : ∀ g : Nat, g ≠ r → appendTo st.heap.segmentLists r st.heap.segmentCount g = st.heap.segmentLists g :=
        fun a ha => heapSet_ne _ _ ha
      have hlistr : appendTo st.heap.segmentLists r st.heap.segmentCount r = st.heap.segmentLists r ++ [st.heap.segmentCount] :=
        heapSet_self _ _ _
      refine ⟨π, heapSet σ st.heap.segmentCount (r, (st.heap.segmentLists r).length), ?_, ?_, ?_⟩
      · refine ⟨⟨hc.inv.root, hc.inv.child, hc.inv.cell, hc.inv.owner, ?_, ?_⟩, ?_, hc.parents, hc.sg, ⟨?_, ?_⟩, hc.used, rfl⟩
        · intro g hg i s hi
          simp only [Heap.newSegment] at hi ⊢
          by_cases hgr : g = r
          · subst hgr
            rw [hlistr, List.getElem?_append] at hi
            split at hi
            · obtain ⟨h1, h2⟩ := hc.inv.segment g hg i s hi
              exact ⟨by omega, by rw [hσ s h1]; exact h2⟩
            · rename_i hle
              have : i - (st.heap.segmentLists g).length = 0 := by
                cases hx : i - (st.heap.segmentLists g).length with
                | zero => rfl
                | succ n => rw [hx] at hi; simp at hi
              rw [this] at hi
              injection hi with hi
              subst hi
              refine ⟨by omega, ?_⟩
              rw [hself]
              congr 1
              omega
          · rw [hlists g hgr] at hi
            obtain ⟨h1, h2⟩ := hc.inv.segment g hg i s hi
            exact ⟨by omega, by rw [hσ s h1]; exact h2⟩
        · intro s hs
          simp only [Heap.newSegment] at hs ⊢
          by_cases hsS : s = st.heap.segmentCount
          · subst hsS
            rw [hself, heapSet_self]
            exact ⟨rfl, hrG, by rw [hlistr]; simp⟩
          · obtain ⟨h1, h2, h3⟩ := hc.inv.segmentCell s (by omega)
            rw [hσ s (by omega), heapSet_ne _ _ hsS]
            refine ⟨h1, h2, ?_⟩
            by_cases hgr : (σ s).1 = r
            · rw [hgr] at h3 ⊢
              rw [hlistr, List.getElem?_append, if_pos (List.getElem?_eq_some_iff.1 h3).1]
              exact h3
            · rw [hlists _ hgr]
              exact h3
        · intro n hn
          have hseg : ∀ s : Nat, s < st.heap.segmentCount →
              Heap.readSegment { st.heap.newSegment segment with segmentLists := appendTo (st.heap.newSegment segment).segmentLists r st.heap.segmentCount } s =
                st.heap.readSegment s := by
            intro s hs
            obtain ⟨h1, _, _⟩ := hc.inv.segmentCell s hs
            simp only [Heap.readSegment, Heap.newSegment, heapSet_ne st.heap.segments _ (show s ≠ st.heap.segmentCount by omega), h1,
              heapSet_ne st.heap.dataElementLists _ (show s ≠ st.heap.segmentCount by omega)]
          have hnew :
              Heap.readSegment { st.heap.newSegment segment with segmentLists := appendTo (st.heap.newSegment segment).segmentLists r st.heap.segmentCount }
                st.heap.segmentCount = segment := by
            simp only [Heap.readSegment, Heap.newSegment, heapSet_self]
            cases segment
            simp only at hempty
            subst hempty
            rfl
          have hlen := hc.inv.path_length (r + 1) (by omega)
          have hn' : st.heap.groupCount + 1 ≤ n := hn
          refine Eq.trans (hc.inv.read_segments (h' := { st.heap.newSegment segment with
              segmentLists := appendTo (st.heap.newSegment segment).segmentLists r st.heap.segmentCount }) hrG rfl rfl (· ++ [segment]) ?_ ?_ n (by omega)) ?_
          · simp only [Heap.readSegments]
            have : appendTo (st.heap.newSegment segment).segmentLists r st.heap.segmentCount r =
              st.heap.segmentLists r ++ [st.heap.segmentCount] := hlistr
            rw [this, List.map_append, List.map_cons, List.map_nil, hnew]
            congr 1
            apply List.map_congr_left
            intro s hs
            obtain ⟨i, hi⟩ := List.getElem?_of_mem hs
            exact hseg s (hc.inv.segment r hrG i s hi).1
          · intro k hk hkr
            simp only [Heap.readSegments]
            have : appendTo (st.heap.newSegment segment).segmentLists r st.heap.segmentCount k = st.heap.segmentLists k := hlists k hkr
            rw [this]
            apply List.map_congr_left
            intro s hs
            obtain ⟨i, hi⟩ := List.getElem?_of_mem hs
            exact hseg s (hc.inv.segment k hk i s hi).1
          · rw [hc.lines n hn']
        · simp only [Heap.newSegment, heapSet_self, Option.map_some]
        · intro s hs
          simp only [Heap.newSegment, heapSet_self] at hs ⊢
          cases hs
          omega
      · simp [hsg, hr]
      · exact fun g hg => hsG g (by simpa [hr] using hg)

theorem segmentStepRef_related (posStr : AhbLocation → PyStr) (lines : List AhbLine) (position : AhbLocation) (stack : Option EdifactStack)
    {st : HeapState} {ad : DeepState} (h : HeapRel st ad) :
    SameResult HeapRel (segmentStepRef posStr lines position stack st) (segmentStep posStr lines position stack ad) := by
  unfold segmentStepRef segmentStep
  cases lines.head? with
  | none => exact rfl
  | some firstLine =>
  simp only
  refine SameResult.bind (x := pyLast lines) (y := pyLast lines) (SameResult.same _) ?_
  intro lastLine _ e
  subst e
  refine SameResult.bind (maybeOpenGroupRef_related _ _ _ _ h) ?_
  intro st1 ad1 h1
  split
  · exact rfl
  split
  · exact rfl
  exact createSegmentRef_related _ _ _ _ _ h1

theorem dataElementStepRef_related (lines : List AhbLine) (position : AhbLocation) (stack : Option EdifactStack)
    {st : HeapState} {ad : DeepState} (h : HeapRel st ad) :
    SameResult HeapRel (dataElementStepRef lines position stack st) (dataElementStep lines position stack ad) := by
  unfold dataElementStepRef dataElementStep
  split
  · exact h
  refine SameResult.bind (SameResult.same _) ?_
  intro de _ e
  subst e
  obtain ⟨π, σ, hc, hsg, hsG⟩ := h
  rw [hc.dataElements.1]
  cases hd : st.dataElementsHere with
  | none => exact rfl
  | some r =>
    have hrS := hc.dataElements.2 r hd
    obtain ⟨hcell, hG, hat⟩ := hc.inv.segmentCell r hrS
    simp only [Option.map_some]
    refine ⟨π, σ, ⟨⟨hc.inv.root, hc.inv.child, hc.inv.cell, hc.inv.owner, hc.inv.segment, hc.inv.segmentCell⟩, ?_, hc.parents, hc.sg,
      ⟨?_, ?_⟩, hc.used, rfl⟩, hsg, hsG⟩
    · intro n hn
      have hn' : st.heap.groupCount + 1 ≤ n := hn
      have hlen := hc.inv.path_length ((σ r).1 + 1) (by omega)
      have hseg : ∀ s : Nat, s < st.heap.segmentCount → s ≠ r →
          Heap.readSegment { st.heap with dataElementLists := appendTo st.heap.dataElementLists r de } s = st.heap.readSegment s := by
        intro s hs hsr
        obtain ⟨h1, _, _⟩ := hc.inv.segmentCell s hs
        simp only [Heap.readSegment, h1, appendTo, heapSet_ne st.heap.dataElementLists _ hsr]
      have hself : Heap.readSegment { st.heap with dataElementLists := appendTo st.heap.dataElementLists r de } r =
          { st.heap.readSegment r with dataElements := (st.heap.readSegment r).dataElements ++ [de] } := by
        simp only [Heap.readSegment, hcell, appendTo, heapSet_self]
      refine Eq.trans (hc.inv.read_segments (h' := { st.heap with dataElementLists := appendTo st.heap.dataElementLists r de }) hG rfl rfl
        (fun ss => ss.modify (σ r).2 fun s => { s with dataElements := s.dataElements ++ [de] }) ?_ ?_ n (by omega)) ?_
      · simp only [Heap.readSegments]
        apply List.ext_getElem?
        intro j
        rw [List.getElem?_modify, List.getElem?_map, List.getElem?_map]
        cases hj : (st.heap.segmentLists (σ r).1)[j]? with
        | none => rfl
        | some s =>
          obtain ⟨h1, h2⟩ := hc.inv.segment _ hG j s hj
          simp only [Option.map_some]
          by_cases hij : (σ r).2 = j
          · subst hij
            rw [hat] at hj
            injection hj with hj
            subst hj
            rw [hself]
            simp
          · rw [hseg s h1]
            · simp [hij]
            · intro e
              subst e
              rw [h2] at hij
              exact hij rfl
      · intro k hk hkr
        simp only [Heap.readSegments]
        apply List.map_congr_left
        intro s hs
        obtain ⟨i, hi⟩ := List.getElem?_of_mem hs
        obtain ⟨h1, h2⟩ := hc.inv.segment k hk i s hi
        apply hseg s h1
        intro e
        subst e
        rw [h2] at hkr
        exact hkr rfl
      · rw [hc.lines n hn']
    · simp [hd]
    · simp only [hd]
      intro s hs
      cases hs
      exact hrS

theorem deepStepRef_related (reader : MigLookup) (posStr : AhbLocation → PyStr) (item : AhbLocation × List (AhbLine × AhbLocation))
    {st : HeapState} {ad : DeepState} (h : HeapRel st ad) :
    SameResult HeapRel (deepStepRef reader posStr st item) (deepStep reader posStr ad item) := by
  unfold deepStepRef deepStep
  simp only
  split
  · exact h
  refine SameResult.bind (SameResult.same _) ?_
  intro x _ e
  subst e
  obtain ⟨position, stack⟩ := x
  simp only
  split
  · exact dataElementStepRef_related _ _ _ h
  · exact segmentStepRef_related _ _ _ _ h

theorem deepFoldRef_related (reader : MigLookup) (posStr : AhbLocation → PyStr) (items : List (AhbLocation × List (AhbLine × AhbLocation))) :
    ∀ {st : HeapState} {ad : DeepState}, HeapRel st ad →
    SameResult HeapRel (items.foldlM (deepStepRef reader posStr) st) (items.foldlM (deepStep reader posStr) ad) := by
  induction items with
  | nil => intro st ad h; exact h
  | cons x xs ih =>
    intro st ad h
    simp only [List.foldlM_cons]
    exact SameResult.bind (deepStepRef_related reader posStr x h) fun _ _ h' => ih h'

theorem heapRel_init : HeapRel HeapState.init DeepState.init := by
  refine ⟨fun _ => [], fun _ => (0, 0), ⟨⟨rfl, ?_, ?_, ?_, ?_, ?_⟩, ?_, ⟨rfl, ?_⟩, ⟨rfl, ?_⟩, ⟨rfl, ?_⟩, rfl, rfl⟩, rfl, ?_⟩
  · intro a _ i k hk
    simp [HeapState.init] at hk
  · intro k hk
    simp [HeapState.init] at hk
  · intro k hk
    simp [HeapState.init] at hk
  · intro k hk
    simp [HeapState.init] at hk
  · intro k hk
    simp [HeapState.init] at hk
  · intro n hn
    cases n <;> rfl
  · intro r hr
    simp [HeapState.init] at hr
  · intro r hr
    simp [HeapState.init] at hr
  · intro r hr
    simp [HeapState.init] at hr
  · intro r hr
    simp [HeapState.init] at hr

theorem HeapInv.nothingShared {π : Nat → GroupPath} {σ : Nat → Nat × Nat} {h : Heap} (inv : HeapInv π σ h.groupCount h.segmentCount h) :
    h.NothingShared where
  groups := by
    intro a ha b hb i j k l hk hl hor
    obtain ⟨hkG, _, hp⟩ := inv.child a ha i k hk
    obtain ⟨hlG, _, hq⟩ := inv.child b hb j l hl
    have ck := inv.cell k hkG
    have cl := inv.cell l hlG
    have hkl : k = l := by
      rcases hor with h1 | h1 | h1
      · exact h1
      · rw [ck.2, cl.2] at h1; omega
      · rw [ck.1, cl.1] at h1; exact h1
    subst hkl
    rw [hp] at hq
    obtain ⟨h1, h2⟩ := List.append_inj' hq rfl
    injection h2 with h2 _
    exact ⟨inv.path_inj a b ha hb h1, h2⟩
  lists := by
    intro a ha k hk
    obtain ⟨i, hi⟩ := List.getElem?_of_mem hk
    obtain ⟨hkG, _, _⟩ := inv.child a ha i k hi
    have ck := inv.cell k hkG
    omega
  segments := by
    intro a ha b hb i j s t hs ht hor
    obtain ⟨hsS, h1⟩ := inv.segment a ha i s hs
    obtain ⟨htS, h2⟩ := inv.segment b hb j t ht
    have hst : s = t := by
      rcases hor with h3 | h3
      · exact h3
      · rw [(inv.segmentCell s hsS).1, (inv.segmentCell t htS).1] at h3
        exact h3
    subst hst
    rw [h1] at h2
    injection h2 with h3 h4
    exact ⟨h3, h4⟩

/-- emptying the list of groups `b` -/
theorem HeapInv.read_clearGroups {π : Nat → GroupPath} {σ : Nat → Nat × Nat} {G S : Nat} {h : Heap} (inv : HeapInv π σ G S h) {b : Nat}
    (hb : b ≤ G) (n : Nat) (hn : b < n) :
    Heap.readGroups { h with groupLists := heapSet h.groupLists b [] } n 0 = modifyGroups (fun _ => []) (π b) (h.readGroups n 0) := by
  have := inv.path_length b hb
  refine inv.read_changed hb (h' := { h with groupLists := heapSet h.groupLists b [] }) ?_ _ ?_ (π b) n 0 (Nat.zero_le _)
    (by simp [inv.root]) (by omega)
  · intro c hc hcb
    exact ⟨heapSet_ne _ _ hcb, fun k _ => ⟨rfl, rfl⟩⟩
  · intro m
    rw [readGroups_succ]
    simp only [heapSet_self, List.map_nil]

/-- emptying the list of segments `g` -/
theorem HeapInv.read_clearSegments {π : Nat → GroupPath} {σ : Nat → Nat × Nat} {G S : Nat} {h : Heap} (inv : HeapInv π σ G S h) {g : Nat}
    (hg : g < G) (n : Nat) (hn : g < n) :
    Heap.readGroups { h with segmentLists := heapSet h.segmentLists g [] } n 0 = modifySegments (fun _ => []) (π (g + 1)) (h.readGroups n 0) := by
  have := inv.path_length (g + 1) (by omega)
  refine inv.read_segments (h' := { h with segmentLists := heapSet h.segmentLists g [] }) hg rfl rfl _ ?_ ?_ n (by omega)
  · simp only [Heap.readSegments, heapSet_self, List.map_nil]
  · intro k _ hkg
    simp only [Heap.readSegments]
    rw [heapSet_ne _ _ hkg]
    rfl

/-- emptying the list of data elements of the segment `r` -/
theorem HeapInv.read_clearDataElements {π : Nat → GroupPath} {σ : Nat → Nat × Nat} {G S : Nat} {h : Heap} (inv : HeapInv π σ G S h) {r : Nat}
    (hr : r < S) (n : Nat) (hn : G ≤ n) :
    Heap.readGroups { h with dataElementLists := heapSet h.dataElementLists r [] } n 0 =
      modifySegments (fun ss => ss.modify (σ r).2 fun s => { s with dataElements := [] }) (π ((σ r).1 + 1)) (h.readGroups n 0) := by
  obtain ⟨hcell, hG, hat⟩ := inv.segmentCell r hr
  have := inv.path_length ((σ r).1 + 1) (by omega)
  have hseg : ∀ s : Nat, s < S → s ≠ r →
      Heap.readSegment { h with dataElementLists := heapSet h.dataElementLists r [] } s = h.readSegment s := by
    intro s hs hsr
    obtain ⟨h1, _, _⟩ := inv.segmentCell s hs
    simp only [Heap.readSegment, h1, heapSet_ne h.dataElementLists _ hsr]
  have hself : Heap.readSegment { h with dataElementLists := heapSet h.dataElementLists r [] } r =
      { h.readSegment r with dataElements := [] } := by
    simp only [Heap.readSegment, hcell, heapSet_self]
  refine inv.read_segments (h' := { h with dataElementLists := heapSet h.dataElementLists r [] }) hG rfl rfl _ ?_ ?_ n (by omega)
  · simp only [Heap.readSegments]
    apply List.ext_getElem?
    intro j
    rw [List.getElem?_modify, List.getElem?_map, List.getElem?_map]
    cases hj : (h.segmentLists (σ r).1)[j]? with
    | none => rfl
    | some s =>
      obtain ⟨h1, h2⟩ := inv.segment _ hG j s hj
      simp only [Option.map_some]
      by_cases hij : (σ r).2 = j
      · subst hij
        rw [hat] at hj
        injection hj with hj
        subst hj
        rw [hself]
        simp
      · rw [hseg s h1]
        · simp [hij]
        · intro e
          subst e
          rw [h2] at hij
          exact hij rfl
  · intro k hk hkr
    simp only [Heap.readSegments]
    apply List.map_congr_left
    intro s hs
    obtain ⟨i, hi⟩ := List.getElem?_of_mem hs
    obtain ⟨h1, h2⟩ := inv.segment k hk i s hi
    apply hseg s h1
    intro e
    subst e
    rw [h2] at hkr
    exact hkr rfl

/-- the run of the program with references, in terms of the run with addresses -/
theorem toDeepAhbRef_related (reader : MigLookup) (posStr : AhbLocation → PyStr) (flat : FlatAhb) (sgh : Sgh) :
    SameResult (fun (x : FlatAhb × AhbMetaInformation × Heap) (y : FlatAhb × DeepAhb) => x.1 = y.1 ∧ x.2.1 = y.2.ahbMeta ∧
        ∃ (π : Nat → GroupPath) (σ : Nat → Nat × Nat), HeapInv π σ x.2.2.groupCount x.2.2.segmentCount x.2.2 ∧
          ∀ n ≥ x.2.2.groupCount + 1, x.2.2.readGroups n 0 = y.2.lines)
      (toDeepAhbRef reader posStr flat sgh) (toDeepAhb reader posStr flat sgh) := by
  unfold toDeepAhbRef toDeepAhb
  refine SameResult.bind (SameResult.same _) ?_
  intro located _ e
  subst e
  refine SameResult.bind (deepFoldRef_related reader posStr _ heapRel_init) ?_
  intro st ad ⟨π, σ, hc, _⟩
  exact ⟨rfl, rfl, π, σ, hc.inv, hc.lines⟩

end Verif
