import Mathlib.Data.List.Forall2
import Verif.Proofs.Spine
import Verif.Proofs.DeepAddr
import Verif.Proofs.DetermineLocations
import Verif.Spec.Matching
/-! the invariant of `to_deep_ahb` -/

namespace Verif
open SegmentGroup

theorem groupAddresses_concat (init : List SegmentGroup) (g : SegmentGroup) :
    groupAddresses (init ++ [g]) = groupAddresses init ++ g.addresses.map (init.length :: ·) := by
  simp [groupAddresses_eq, List.zipIdx_append]

theorem OnSpine.addresses {l p r} (h : OnSpine l p r) : ∃ pre, groupAddresses l = pre ++ (groupAddresses r).map (p ++ ·) ∧
    ∀ f, groupAddresses (modifyGroups f p l) = pre ++ (groupAddresses (f r)).map (p ++ ·) := by
  induction h with
  | nil l => exact ⟨[], by simp, fun f => by simp [modifyGroups]⟩
  | cons init g gs p r hg h ih =>
    obtain ⟨pre, h1, h2⟩ := ih
    have hc : g.children = gs := by simp [children, hg]
    refine ⟨groupAddresses init ++ [[init.length]] ++ pre.map (init.length :: ·), ?_, ?_⟩
    · rw [groupAddresses_concat, addresses_eq, hc, h1]
      simp [Function.comp_def]
    · intro f
      simp only [modifyGroups, modify_concat]
      rw [groupAddresses_concat, addresses_eq]
      simp [hg, h2, Function.comp_def]

/-- nothing has been built yet -/
structure DeepState.Empty (st : DeepState) : Prop where
  lines : st.lines = []
  parents : st.parentGroupLists = []
  used : st.usedStacks = []
  segmentsHere : st.segmentsHere = none
  sgHere : st.sgHere = none
  dataElementsHere : st.dataElementsHere = none

/-- the last group `g` (in document order) sits at address `p ++ [init.length]` on the spine, has no sub groups, and all
references lead there -/
structure DeepState.BuiltG (st : DeepState) (p : GroupPath) (init : List SegmentGroup) (g : SegmentGroup) (ss : List Segment) :
    Prop where
  spine : OnSpine st.lines p (init ++ [g])
  noGroups : g.segmentGroups = some []
  segments : g.segments = some ss
  sgHere : st.sgHere = some (p ++ [init.length])
  segmentsHere : st.segmentsHere = some (p ++ [init.length])
  parents : st.parentGroupLists = properPrefixes (p ++ [init.length])

theorem DeepState.BuiltG.spineEnd {st p init g ss} (h : DeepState.BuiltG st p init g ss) :
    OnSpine st.lines (p ++ [init.length]) [] :=
  h.spine.trans (.cons _ _ _ _ _ h.noGroups (.nil _))

/-- between pops and pushes: `sgHere` is the prefix of length `n` of the spine end `c` -/
structure DeepState.Nav (st : DeepState) (lines : List SegmentGroup) (c : GroupPath) (n : Nat) : Prop where
  lines : st.lines = lines
  le : n ≤ c.length
  sgHere : st.sgHere = some (c.take n)
  parents : st.parentGroupLists = properPrefixes (c.take n)

/-- the part of the state that is not touched by pops and pushes -/
def DeepState.SameRest (a b : DeepState) : Prop :=
  a.usedStacks = b.usedStacks ∧ a.segmentsHere = b.segmentsHere ∧ a.dataElementsHere = b.dataElementsHere ∧
    a.previousPosition = b.previousPosition

theorem popGroupLists_nav {lines c k n st st'} (h : DeepState.Nav st lines c n) (hp : popGroupLists k st = .ok st') :
    k ≤ n ∧ DeepState.Nav st' lines c (n - k) ∧ DeepState.SameRest st' st := by
  induction k generalizing st n with
  | zero => cases hp; exact ⟨Nat.zero_le _, h, rfl, rfl, rfl, rfl⟩
  | succ k ih =>
    cases n with
    | zero =>
      have h0 := h.parents
      simp [popGroupLists, h0, properPrefixes] at hp
    | succ n =>
      have hle := h.le
      have htake : c.take (n + 1) = c.take n ++ [c[n]] := by rw [List.take_succ_eq_append_getElem]
      have h0 := h.parents
      rw [htake, properPrefixes_concat] at h0
      simp only [popGroupLists, h0, List.getLast?_concat, List.dropLast_concat] at hp
      obtain ⟨h1, h2, h3⟩ := ih (n := n) (by exact ⟨h.lines, by omega, rfl, rfl⟩) hp
      refine ⟨by omega, ?_, h3⟩
      rw [show n + 1 - (k + 1) = n - k by omega]
      exact h2

theorem popGroupLists_empty {k st st'} (h : st.parentGroupLists = []) (hp : popGroupLists k st = .ok st') : k = 0 ∧ st' = st := by
  cases k with
  | zero => cases hp; exact ⟨rfl, rfl⟩
  | succ k => simp [popGroupLists, h] at hp

theorem pushGroupLists_nav {lines c k n st st'} (hs : OnSpine lines c []) (h : DeepState.Nav st lines c n)
    (hp : pushGroupLists k st = .ok st') :
    n + k ≤ c.length ∧ DeepState.Nav st' lines c (n + k) ∧ DeepState.SameRest st' st := by
  induction k generalizing st n with
  | zero => cases hp; exact ⟨h.le, h, rfl, rfl, rfl, rfl⟩
  | succ k ih =>
    have hsplit : OnSpine lines (c.take n ++ c.drop n) [] := by rw [List.take_append_drop]; exact hs
    obtain ⟨r, h1, h2⟩ := hsplit.split
    have hg := h1.groupsAt
    simp only [pushGroupLists, h.sgHere, h.lines, hg] at hp
    by_cases hn : n = c.length
    · subst hn
      rw [List.drop_length] at h2
      cases h2
      simp at hp
    · have hlt : n < c.length := Nat.lt_of_le_of_ne h.le hn
      rw [List.drop_eq_getElem_cons hlt] at h2
      generalize hx : c[n] = x at h2
      generalize c.drop (n + 1) = q at h2
      cases h2 with
      | cons init g gs p r hgs hr =>
        rw [if_neg (by simp)] at hp
        simp only [List.length_append, List.length_singleton, Nat.add_sub_cancel] at hp
        have htake : c.take (n + 1) = c.take n ++ [init.length] := by rw [List.take_succ_eq_append_getElem hlt, hx]
        obtain ⟨i1, i2, i3⟩ := ih (n := n + 1) ⟨rfl, hlt, congrArg some htake.symm, by
          rw [htake, properPrefixes_concat, ← h.parents]⟩ hp
        refine ⟨by omega, ?_, i3⟩
        rw [show n + (k + 1) = n + 1 + k by omega]
        exact i2

/-- the effect of appending a new group at the spine prefix `q` -/
structure Inserted (st st' : DeepState) (g : SegmentGroup) (q : GroupPath) (r : List SegmentGroup) : Prop where
  spine : OnSpine st.lines q r
  lines : st'.lines = modifyGroups (· ++ [g]) q st.lines
  sgHere : st'.sgHere = some (q ++ [r.length])
  segmentsHere : st'.segmentsHere = some (q ++ [r.length])
  parents : st'.parentGroupLists = properPrefixes (q ++ [r.length])
  used : st'.usedStacks = st.usedStacks
  previous : st'.previousPosition = st.previousPosition

theorem Inserted.builtG {st st' g q r} (h : Inserted st st' g q r) (h1 : g.segmentGroups = some [])
    (h2 : g.segments = some []) : st'.BuiltG q r g [] :=
  ⟨by rw [h.lines]; exact h.spine.modify _, h1, h2, h.sgHere, h.segmentsHere, h.parents⟩

theorem Inserted.docOrder {st st' g q r} (h : Inserted st st' g q r) (h1 : g.segmentGroups = some [])
    (h2 : g.segments = some []) : documentOrder st'.lines = documentOrder st.lines ++ [g.header] := by
  obtain ⟨pre, hp1, hp2⟩ := h.spine.docOrder
  rw [h.lines, hp2, hp1]
  simp [documentOrder_singleton, docItems_eq, children, ownSegments, h1, h2]

theorem appendGroup_nav {lines c n st st' g} (hs : OnSpine lines c []) (h : DeepState.Nav st lines c n)
    (hp : appendGroup g st = .ok st') : ∃ r, Inserted st st' g (c.take n) r := by
  have hsplit : OnSpine lines (c.take n ++ c.drop n) [] := by rw [List.take_append_drop]; exact hs
  obtain ⟨r, h1, h2⟩ := hsplit.split
  have hg := h1.groupsAt
  simp only [appendGroup, h.sgHere, h.lines, hg, Option.getD_some, Except.ok.injEq] at hp
  subst hp
  exact ⟨r, by rw [h.lines]; exact h1, by simp [h.lines], rfl, rfl, by simp [properPrefixes_concat, h.parents], rfl, rfl⟩

/-- inserting a group into an empty tree -/
theorem insertGroup_empty {st st' g pos} (h1 : st.lines = []) (h2 : st.parentGroupLists = []) (h3 : st.sgHere = none)
    (hp : insertGroup g pos st = .ok st') :
    g.discriminator = some rootPath ∧ Inserted st st' g [] [] := by
  unfold insertGroup at hp
  split at hp
  · rename_i hr
    cases hp
    exact ⟨hr, by rw [h1]; exact .nil _, by simp [modifyGroups], by simp [h1], by simp [h1],
      by simp [h2, properPrefixes], rfl, rfl⟩
  · exfalso
    split at hp
    · cases hp
    · split at hp
      · simp [appendGroup, h3] at hp
      · simp only [bind, Except.bind] at hp
        split at hp
        · cases hp
        · split at hp
          · cases hp
          · rename_i d _ _ st1 hpop
            obtain ⟨_, rfl⟩ := popGroupLists_empty h2 hpop
            split at hp
            · cases hp
            · rename_i st2 hpush
              cases hd : d.layersDown - 1 with
              | zero =>
                rw [hd] at hpush
                cases hpush
                simp [appendGroup, h3] at hp
              | succ k => rw [hd] at hpush; simp [pushGroupLists, h3] at hpush

/-- inserting a further group -/
theorem insertGroup_built {st st' p init g0 ss g pos} (h : DeepState.BuiltG st p init g0 ss)
    (hroot : g.discriminator ≠ some rootPath) (hp : insertGroup g pos st = .ok st') :
    ∃ previous n r, st.previousPosition = some previous ∧ Inserted st st' g ((p ++ [init.length]).take n) r ∧
      n ≤ p.length + 1 ∧
      ((pos.isSubLocationOf previous = true ∧ n = p.length + 1) ∨
       (pos.isSubLocationOf previous = false ∧ ∃ d, calculateDistance previous pos = .ok d ∧
          d.layersUp ≤ p.length + 1 ∧ n = p.length + 1 - d.layersUp + (d.layersDown - 1))) := by
  unfold insertGroup at hp
  rw [if_neg hroot] at hp
  cases hprev : st.previousPosition with
  | none => rw [hprev] at hp; cases hp
  | some previous =>
    rw [hprev] at hp
    simp only at hp
    have hnav : DeepState.Nav st st.lines (p ++ [init.length]) (p.length + 1) :=
      ⟨rfl, by simp, by rw [h.sgHere, List.take_of_length_le (by simp)], by
        rw [h.parents, List.take_of_length_le (by simp)]⟩
    split at hp
    · rename_i hsub
      obtain ⟨r, hr⟩ := appendGroup_nav h.spineEnd hnav hp
      exact ⟨previous, _, r, rfl, hr, Nat.le_refl _, Or.inl ⟨hsub, rfl⟩⟩
    · rename_i hsub
      simp only [bind, Except.bind] at hp
      split at hp
      · cases hp
      · rename_i d hd
        split at hp
        · cases hp
        · rename_i st1 hpop
          split at hp
          · cases hp
          · rename_i st2 hpush
            obtain ⟨a1, a2, a3⟩ := popGroupLists_nav hnav hpop
            obtain ⟨b1, b2, b3⟩ := pushGroupLists_nav h.spineEnd a2 hpush
            obtain ⟨r, hr⟩ := appendGroup_nav h.spineEnd b2 hp
            refine ⟨previous, _, r, rfl, ⟨?_, ?_, hr.sgHere, hr.segmentsHere, hr.parents, ?_, ?_⟩, ?_,
              Or.inr ⟨by simpa using hsub, d, hd, a1, rfl⟩⟩
            · have := hr.spine; rwa [b2.lines] at this
            · have := hr.lines; rwa [b2.lines] at this
            · rw [hr.used, b3.1, a3.1]
            · rw [hr.previous, b3.2.2.2, a3.2.2.2]
            · simpa using b1

theorem modifySegments_built {st p init g ss} (h : DeepState.BuiltG st p init g ss) (f : List Segment → List Segment) :
    ∃ pre g', documentOrder st.lines = pre ++ ss.flatMap Segment.docItems ∧
      documentOrder (modifySegments f (p ++ [init.length]) st.lines) = pre ++ (f ss).flatMap Segment.docItems ∧
      OnSpine (modifySegments f (p ++ [init.length]) st.lines) p (init ++ [g']) ∧
      g'.segmentGroups = some [] ∧ g'.segments = some (f ss) ∧
      groupAddresses (modifySegments f (p ++ [init.length]) st.lines) = groupAddresses st.lines := by
  simp only [modifySegments, List.getLast?_concat, List.dropLast_concat]
  obtain ⟨pre, h1, h2⟩ := h.spine.docOrder
  have hspine := h.spine.modify (fun gs => gs.modify init.length fun g => g.setSegments (g.segments.map f))
  simp only [modify_concat] at hspine
  refine ⟨pre ++ documentOrder init ++ [g.header], g.setSegments (g.segments.map f), ?_, ?_, hspine, ?_, ?_, ?_⟩
  · rw [h1]; simp [documentOrder_singleton, docItems_eq, children, ownSegments, h.noGroups, h.segments]
  · rw [h2]; simp [modify_concat, documentOrder_singleton, docItems_eq, children, h.noGroups, h.segments]
  · simp [h.noGroups]
  · simp [h.segments]
  · obtain ⟨pre, a1, a2⟩ := h.spine.addresses
    rw [a1, a2, modify_concat, groupAddresses_concat, groupAddresses_concat, addresses_eq, addresses_eq]
    simp

/-- how the place `q` of a new group is found: nowhere to go in an empty tree; otherwise the new place is an initial part
of the current place `c` -/
def NavCase (st : DeepState) (pos : AhbLocation) (q : GroupPath) : Prop :=
  (st.sgHere = none ∧ q = []) ∨
  ∃ c previous n, st.sgHere = some c ∧ st.previousPosition = some previous ∧ q = c.take n ∧ n ≤ c.length ∧
    ((pos.isSubLocationOf previous = true ∧ n = c.length) ∨
     (pos.isSubLocationOf previous = false ∧ ∃ d, calculateDistance previous pos = .ok d ∧
        d.layersUp ≤ c.length ∧ n = c.length - d.layersUp + (d.layersDown - 1)))

/-- the invariant of the loop of `to_deep_ahb` -/
def DeepState.Inv (st : DeepState) : Prop :=
  st.Empty ∨ (rootPath ∈ st.usedStacks ∧ ∃ p init g ss s, st.BuiltG p init g (ss ++ [s]) ∧
    st.dataElementsHere = some (p ++ [init.length], ss.length))

theorem lookupStack_ok {reader : MigLookup} {r : Run} {pos stk} (hne : r.2 ≠ [])
    (h : lookupStack reader r.1 r.2 = .ok (pos, stk)) : pos = r.location ∧ stk = r.stack reader := by
  obtain ⟨key, group⟩ := r
  have retry : ∀ loc l, retryStack reader loc l = (match l with
      | [] => .ok none
      | _ :: _ => match reader loc with
        | .ok s => .ok s
        | .error .valueError => .ok none
        | .error e => .error e) := by
    intro loc l
    induction l with
    | nil => rfl
    | cons x l ih =>
      simp only [retryStack]
      split
      · rename_i hr; simp [hr]
      · rename_i hr
        rw [ih]
        cases l <;> simp [hr]
      · rename_i e he hr
        simp [hr]
  match group, hne with
  | [(l, loc)], _ =>
    simp only [lookupStack, List.length_singleton, if_true] at h
    simp only [Run.location, Run.stack]
    cases hr : reader loc with
    | ok s => rw [hr] at h; cases h; exact ⟨rfl, rfl⟩
    | error e => rw [hr] at h; cases e <;> cases h; exact ⟨rfl, rfl⟩
  | (l, loc) :: y :: ys, _ =>
    simp only [lookupStack, List.length_cons, Nat.add_eq_right, Nat.add_one_ne_zero, if_false] at h
    simp only [Run.location, Run.stack]
    cases hr : reader key with
    | ok s => rw [hr] at h; cases h; exact ⟨rfl, rfl⟩
    | error e =>
      rw [hr] at h
      cases e <;> try cases h
      simp only [gt_iff_lt, Nat.lt_add_left_iff_pos, Nat.zero_lt_succ, if_true, retry, List.map_cons, bind,
        Except.bind] at h
      cases hr2 : reader loc with
      | ok s => rw [hr2] at h; cases h; exact ⟨rfl, rfl⟩
      | error e => rw [hr2] at h; cases e <;> cases h; exact ⟨rfl, rfl⟩

theorem isNotBlank_iff (s : PyStr) : isNotBlank (some s) = true ↔ strip s ≠ [] := by
  cases s with
  | nil => simp [isNotBlank, strip, lstrip, rstrip]
  | cons c s => simp [isNotBlank]

theorem dropWhile_ne_nil {α} (p : α → Bool) (s : List α) : s.dropWhile p ≠ [] ↔ ∃ c ∈ s, p c = false := by
  induction s with
  | nil => simp
  | cons c s ih =>
    rw [List.dropWhile_cons]
    split
    · rename_i h; rw [ih]; simp [h]
    · rename_i h; simp [h]

theorem mem_dropWhile_of_false {α} {p : α → Bool} {s : List α} {c : α} (h : c ∈ s) (hc : p c = false) :
    c ∈ s.dropWhile p := by
  induction s with
  | nil => cases h
  | cons x s ih =>
    rw [List.dropWhile_cons]
    split
    · rename_i hx
      rcases List.mem_cons.1 h with rfl | h
      · rw [hc] at hx; cases hx
      · exact ih h
    · exact h

theorem strip_ne_nil (s : PyStr) : strip s ≠ [] ↔ NotBlank s := by
  unfold strip lstrip rstrip NotBlank
  rw [Ne, List.reverse_eq_nil_iff, ← Ne, dropWhile_ne_nil]
  constructor
  · rintro ⟨c, h1, h2⟩
    exact ⟨c, (List.dropWhile_sublist isSpace).subset (List.mem_reverse.1 h1), not_mem_whiteSpace.2 h2⟩
  · rintro ⟨c, h1, h2⟩
    exact ⟨c, List.mem_reverse.2 (mem_dropWhile_of_false h1 (not_mem_whiteSpace.1 h2)), not_mem_whiteSpace.1 h2⟩

theorem notBlank_iff (s : PyStr) : isNotBlank (some s) = true ↔ NotBlank s := by rw [isNotBlank_iff, strip_ne_nil]

theorem valuePoolEntryNew_ok {q m e : Option PyStr} {x} (h : ValuePoolEntry.new q m e = .ok x) :
    q = some x.qualifier ∧ m = some x.meaning ∧ e = some x.ahbExpression ∧ NotBlank x.ahbExpression ∧
      isEdifactQualifier (some x.qualifier) = true := by
  unfold ValuePoolEntry.new at h
  split at h
  · cases h
  · rename_i hq
    split at h
    · cases h
    · split at h
      · cases h
      · rename_i he
        cases h
        cases q with
        | none => simp [isEdifactQualifier, isNotBlank] at hq
        | some q =>
          cases e with
          | none => simp [isNotBlank] at he
          | some e => exact ⟨rfl, rfl, rfl, (notBlank_iff _).1 (by simpa using he), by simpa using hq⟩

theorem mergeEntries_ok {ls : List AhbLine} {es} (h : mergeEntries ls = .ok es) :
    List.Forall₂ (fun (l : AhbLine) (x : ValuePoolEntry) => l.valuePoolEntry = some x.qualifier ∧
      (∃ n, l.name = some n ∧ x.meaning = strip n) ∧ l.ahbExpression = some x.ahbExpression ∧
      NotBlank x.ahbExpression ∧ isEdifactQualifier (some x.qualifier) = true)
      (ls.filter fun l => truthy l.ahbExpression) es := by
  induction ls generalizing es with
  | nil => cases h; exact .nil
  | cons l ls ih =>
    unfold mergeEntries at h
    rw [List.filter_cons]
    split at h
    · rename_i ht
      rw [if_neg (by simpa using ht)]
      exact ih h
    · rename_i ht
      rw [if_pos (by simpa using ht)]
      split at h
      · cases h
      · rename_i n hn
        simp only [bind, Except.bind] at h
        split at h
        · cases h
        · rename_i e he
          split at h
          · cases h
          · rename_i es' hes
            cases h
            obtain ⟨h1, h2, h3, h4, h5⟩ := valuePoolEntryNew_ok he
            exact .cons ⟨h1, ⟨n, hn, (Option.some.inj h2).symm⟩, h3, h4, h5⟩ (ih hes)

theorem checkBase_ok {d e s} (h : DataElement.checkBase d e = .ok s) :
    e = some s ∧ (dataElement4Re.fullMatch s).isSome = true ∧ ∀ x, d = some x → NotBlank x := by
  unfold DataElement.checkBase at h
  split at h
  · cases h
  · rename_i hd
    split at h
    · cases h
    · split at h
      · cases h
      · rename_i hm
        cases h
        refine ⟨rfl, by simpa [Option.isSome_iff_ne_none] using hm, ?_⟩
        rintro x rfl
        exact (notBlank_iff x).1 (by simpa using hd)

/-- what a successful merge returns -/
theorem merge_ok {ls : List AhbLine} {stk de} (h : mergeLinesWithSameDataElement ls stk = .ok de) :
    (distinctDataElements ls).length = 1 ∧ ∃ first rest d, ls = first :: rest ∧ first.dataElement = some d ∧
      (dataElement4Re.fullMatch d).isSome = true ∧
      de.discriminator = stk.map EdifactStack.toJsonPath ∧ de.dataElementId = d ∧ de.enteredInput = none ∧
      (first.valuePoolEntry ≠ none → de.valueType = some .valuePool ∧
        ∃ es, de.kind = .valuePool es ∧ mergeEntries ls = .ok es) ∧
      (first.valuePoolEntry = none →
        de.valueType = some (if first.segmentCode = some py!"DTM" then .datetime else .text) ∧
        ∃ e, de.kind = .freeText e ∧ first.ahbExpression = some e ∧ NotBlank e) := by
  unfold mergeLinesWithSameDataElement at h
  split at h
  · cases h
  · rename_i hd
    refine ⟨by simpa using hd, ?_⟩
    split at h
    · cases h
    · rename_i first rest
      split at h
      · rename_i hv
        simp only [DataElement.newValuePool, bind, Except.bind] at h
        split at h
        · cases h
        · rename_i r hr
          split at hr
          · cases hr
          · rename_i d hd'
            cases hr
            split at h
            · cases h
            · rename_i es hes
              cases h
              obtain ⟨h1, h2, h3⟩ := checkBase_ok hd'
              refine ⟨first, rest, d, rfl, h1, h2, rfl, rfl, rfl, fun _ => ⟨rfl, es, rfl, hes⟩, fun hn => ?_⟩
              rw [hn] at hv; cases hv
      · rename_i hv
        have hv' : first.valuePoolEntry = none := by simpa using hv
        simp only [DataElement.newFreeText, bind, Except.bind] at h
        split at h
        · cases h
        · rename_i r hr
          split at hr
          · cases hr
          · rename_i d hd'
            split at hr
            · cases hr
            · rename_i e he
              split at hr
              · cases hr
              · rename_i hb
                cases hr
                obtain ⟨h1, h2, h3⟩ := checkBase_ok hd'
                have hb' := (notBlank_iff e).1 (by simpa using hb)
                unfold deriveDataTypeFromSegmentCode at h
                by_cases hs : first.segmentCode = some py!"DTM"
                · rw [if_pos hs] at h
                  cases h
                  exact ⟨first, rest, d, rfl, h1, h2, rfl, rfl, rfl, fun hn => absurd hv' hn,
                    fun _ => ⟨by rw [if_pos hs], e, rfl, he, hb'⟩⟩
                · rw [if_neg hs] at h
                  cases h
                  exact ⟨first, rest, d, rfl, h1, h2, rfl, rfl, rfl, fun hn => absurd hv' hn,
                    fun _ => ⟨by rw [if_neg hs], e, rfl, he, hb'⟩⟩

theorem forall₂_mem_right {α β} {R : α → β → Prop} {l : List α} {m : List β} (h : List.Forall₂ R l m) :
    ∀ y ∈ m, ∃ x ∈ l, R x y := by
  induction h with
  | nil => simp
  | cons hr _ ih =>
    intro y hy
    rcases List.mem_cons.1 hy with rfl | hy
    · exact ⟨_, by simp, hr⟩
    · obtain ⟨x, hx, h⟩ := ih y hy
      exact ⟨x, by simp [hx], h⟩

theorem merge_notBlank {ls : List AhbLine} {stk de} (h : mergeLinesWithSameDataElement ls stk = .ok de) :
    (DocItem.dataElement de).NotBlank := by
  obtain ⟨_, first, rest, d, rfl, _, _, _, _, _, h1, h2⟩ := merge_ok h
  by_cases hv : first.valuePoolEntry = none
  · obtain ⟨_, e, hk, _, he⟩ := h2 hv
    simpa [DocItem.NotBlank, hk] using he
  · obtain ⟨_, es, hk, hes⟩ := h1 hv
    simp only [DocItem.NotBlank, hk]
    intro x hx
    obtain ⟨l, _, _, _, _, hb, _⟩ := forall₂_mem_right (mergeEntries_ok hes) x hx
    exact hb

theorem checkSegmentLevelExpression_ok {e : Option PyStr} {s} (h : checkSegmentLevelExpression e = .ok s) :
    e = some s ∧ isNotBlank (some s) = true := by
  unfold checkSegmentLevelExpression at h
  split at h
  · cases h
  · split at h
    · cases h
    · cases h; simp_all

theorem segmentGroupNew_ok {d e i s gs g} (h : SegmentGroup.new d e i s gs = .ok g) :
    ∃ x, e = some x ∧ isNotBlank (some x) = true ∧ g = .mk d x i s gs := by
  simp only [SegmentGroup.new, bind, Except.bind] at h
  split at h
  · cases h
  · rename_i x hx
    cases h
    obtain ⟨h1, h2⟩ := checkSegmentLevelExpression_ok hx
    exact ⟨_, h1, h2, rfl⟩

theorem segmentNew_ok {d e i de sn sid s} (h : Segment.new d e i de sn sid = .ok s) :
    ∃ x, e = some x ∧ isNotBlank (some x) = true ∧ s = ⟨d, x, i, de, sn, sid⟩ := by
  simp only [Segment.new, bind, Except.bind] at h
  split at h
  · cases h
  · rename_i x hx
    split at h
    · cases h
    · cases h
      obtain ⟨h1, h2⟩ := checkSegmentLevelExpression_ok hx
      exact ⟨_, h1, h2, rfl⟩

/-- the relation between `opensGroup` and its specification -/
theorem opensGroup_iff {reader : MigLookup} {used} {r : Run} {first last layer} (h1 : r.lines.head? = some first)
    (h2 : r.lines.getLast? = some last) (h3 : r.location.layers.getLast? = some layer) :
    (opensGroup used first last layer (r.stack reader) = true →
      ∃ s, r.stack reader = some s ∧ r.openedPath reader used = some s.toJsonPath ∧ s.toJsonPath ∉ used ∧
        ∃ e, first.ahbExpression = some e) ∧
    (opensGroup used first last layer (r.stack reader) = false → r.openedPath reader used = none) := by
  unfold opensGroup Run.openedPath
  rw [h1, h2, h3]
  cases hs : r.stack reader with
  | none => simp
  | some s =>
    simp only
    constructor
    · intro h
      simp only [Bool.and_eq_true, decide_eq_true_eq, Bool.not_eq_true', List.contains_eq_mem, decide_eq_false_iff_not] at h
      obtain ⟨⟨a, b⟩, c, d⟩ := h
      refine ⟨s, rfl, ?_, c, Option.isSome_iff_exists.1 d⟩
      rw [if_pos ⟨a, b.symm, c, by intro hn; simp [hn] at d⟩]
    · intro h
      rw [if_neg]
      rintro ⟨a, b, c, d⟩
      have : opensGroup used first last layer (some s) = true := by
        simp [opensGroup, a, b, c, Option.isSome_iff_ne_none, d]
      unfold opensGroup at this
      rw [this] at h
      cases h

/-- the effect of the `if` that opens a group -/
theorem maybeOpenGroup_ok {reader : MigLookup} {r : Run} {first last st st'} (hinv : st.Inv)
    (h1 : r.lines.head? = some first) (h2 : r.lines.getLast? = some last)
    (h : maybeOpenGroup first last r.location (r.stack reader) st = .ok st') :
    (r.openedPath reader st.usedStacks = none ∧ st' = st) ∨
    ∃ path e g q l st1, r.openedPath reader st.usedStacks = some path ∧ path ∉ st.usedStacks ∧
      first.ahbExpression = some e ∧
      isNotBlank (some (strip e)) = true ∧ g = .mk (some path) (strip e) first.index (some []) (some []) ∧
      st1 = { st with usedStacks := st.usedStacks ++ [path] } ∧ insertGroup g r.location st1 = .ok st' ∧
      Inserted st1 st' g q l ∧ rootPath ∈ st'.usedStacks ∧ NavCase st r.location q := by
  simp only [maybeOpenGroup, bind, Except.bind] at h
  split at h
  · cases h
  · rename_i layer hlayer
    obtain ⟨o1, o2⟩ := opensGroup_iff (reader := reader) (used := st.usedStacks) h1 h2 (pyLast_ok hlayer)
    split at h
    · rename_i hop
      obtain ⟨s, hs, hpath, hnot, e, he⟩ := o1 hop
      rw [hs, he] at h
      simp only [Option.map_some] at h
      split at h
      · cases h
      · rename_i g hg
        obtain ⟨x, hx, hblank, rfl⟩ := segmentGroupNew_ok hg
        cases hx
        simp only [Option.toList_some] at h
        right
        rcases hinv with hempty | ⟨hroot, p, init, g0, ss, sg, hb, hde⟩
        · obtain ⟨hd, hins⟩ := insertGroup_empty (by exact hempty.lines) (by exact hempty.parents) (by exact hempty.sgHere) h
          refine ⟨_, e, _, _, _, _, hpath, hnot, he, hblank, rfl, rfl, h, hins, ?_, Or.inl ⟨hempty.sgHere, rfl⟩⟩
          rw [hins.used]
          simp only [SegmentGroup.discriminator, Option.some.injEq] at hd
          simp [hd]
        · have hne : s.toJsonPath ≠ rootPath := by rintro heq; exact hnot (heq ▸ hroot)
          obtain ⟨previous, n, l, hprev, hins, hn, hcase⟩ := insertGroup_built
            (st := { st with usedStacks := st.usedStacks ++ [s.toJsonPath] })
            ⟨hb.spine, hb.noGroups, hb.segments, hb.sgHere, hb.segmentsHere, hb.parents⟩
            (by simpa [SegmentGroup.discriminator] using hne) h
          refine ⟨_, e, _, _, _, _, hpath, hnot, he, hblank, rfl, rfl, h, hins, ?_,
            Or.inr ⟨_, previous, n, hb.sgHere, hprev, rfl, by simpa using hn, by simpa using hcase⟩⟩
          rw [hins.used]
          simp [hroot]
    · rename_i hop
      left
      cases h
      exact ⟨o2 (by simpa using hop), rfl⟩

theorem firstExpression_eq (r : Run) : r.firstExpression =
    (r.lines.find? fun l => truthy l.ahbExpression).bind AhbLine.ahbExpression := by
  unfold Run.firstExpression
  generalize r.lines = ls
  induction ls with
  | nil => rfl
  | cons l ls ih =>
    rw [List.findSome?_cons, List.find?_cons]
    have ht : truthy l.ahbExpression = (l.ahbExpression.filter fun e => decide (e ≠ [])).isSome := by
      cases l.ahbExpression with
      | none => rfl
      | some e => cases e <;> rfl
    rw [ht, ih]
    cases hf : l.ahbExpression.filter fun e => decide (e ≠ []) with
    | none => simp
    | some e => simpa using (Option.filter_eq_some_iff.1 hf).1.symm

theorem createSegment_none {reader : MigLookup} {posStr} {r : Run} {first : AhbLine} {st st' : DeepState}
    (hno : r.firstExpression = none)
    (h : createSegment posStr r.lines first r.location (r.stack reader) st = .ok st') : st' = st := by
  unfold createSegment at h
  split at h
  · cases h; rfl
  · rename_i el hel
    rw [firstExpression_eq, hel] at hno
    have := List.find?_some hel
    cases he : el.ahbExpression with
    | none => rw [he] at this; cases this
    | some e => simp [he] at hno

theorem createSegment_unbuilt {posStr lines first pos stack} {st st' : DeepState} (hs : st.segmentsHere = none)
    (h : createSegment posStr lines first pos stack st = .ok st') :
    (lines.find? fun l => truthy l.ahbExpression) = none ∧ st' = st := by
  unfold createSegment at h
  split at h
  · rename_i hn; cases h; exact ⟨hn, rfl⟩
  · simp only [hs, bind, Except.bind] at h
    split at h <;> cases h

theorem createSegment_some {reader : MigLookup} {posStr} {r : Run} {first : AhbLine} {st st' : DeepState}
    {p init g ss} (hb : st.BuiltG p init g ss) (hfirst : r.lines.head? = some first)
    (hsome : r.firstExpression ≠ none)
    (h : createSegment posStr r.lines first r.location (r.stack reader) st = .ok st') :
    (∃ s g', st'.BuiltG p init g' (ss ++ [s])) ∧ st'.dataElementsHere = some (p ++ [init.length], ss.length) ∧
      st'.usedStacks = st.usedStacks ∧ st'.previousPosition = some r.location ∧
      documentOrder st'.lines = documentOrder st.lines ++ (r.createdSegment reader posStr).toList ∧
      groupAddresses st'.lines = groupAddresses st.lines ∧
      ∀ x ∈ (r.createdSegment reader posStr).toList, x.NotBlank := by
  unfold createSegment at h
  split at h
  · rename_i hn; rw [firstExpression_eq, hn] at hsome; exact absurd rfl hsome
  · rename_i el hel
    simp only [bind, Except.bind] at h
    split at h
    · cases h
    · rename_i seg hseg
      obtain ⟨e, he, hbl, rfl⟩ := segmentNew_ok hseg
      rw [hb.segmentsHere] at h
      simp only [List.dropLast_concat, hb.spine.groupsAt, Option.getD_some, List.getLast?_concat, pure, Except.pure,
        Except.ok.injEq] at h
      subst h
      generalize hsg : Segment.mk _ e _ _ _ _ = sg
      obtain ⟨pre, g', h1, h2, h3, h4, h5, h6⟩ := modifySegments_built hb (· ++ [sg])
      refine ⟨⟨_, g', h3, h4, h5, hb.sgHere, rfl, hb.parents⟩, ?_, rfl, rfl, ?_, h6, ?_⟩
      · simp [hb.segments]
      · simp only [h2, h1]
        simp only [Run.createdSegment, firstExpression_eq, hel, Option.bind_some, he, hfirst]
        subst hsg
        simp [Segment.docItems, Segment.header]
        cases r.stack reader <;> rfl
      · simp only [Run.createdSegment, firstExpression_eq, hel, Option.bind_some, he, hfirst]
        simp [DocItem.NotBlank, (notBlank_iff e).1 hbl]

/-- one iteration of the loop: where the new group sits -/
def StepNav (reader : MigLookup) (r : Run) (st st' : DeepState) : Prop :=
  st'.previousPosition = (if r.isUsed then some r.location else st.previousPosition) ∧
  (((r.isHeading || r.hasDataElement) = true ∨ r.openedPath reader st.usedStacks = none) ∧
      groupAddresses st'.lines = groupAddresses st.lines ∧ st'.sgHere = st.sgHere ∨
   (r.isHeading || r.hasDataElement) = false ∧ r.isUsed = true ∧ ∃ path, r.openedPath reader st.usedStacks = some path ∧
      ∃ q n, NavCase st r.location q ∧ groupAddresses st'.lines = groupAddresses st.lines ++ [q ++ [n]] ∧
        st'.sgHere = some (q ++ [n]))

/-- one iteration of the loop: what is appended to the document -/
theorem deepStep_ok {reader : MigLookup} {posStr} {r : Run} {st st' : DeepState} (hinv : st.Inv)
    (h : deepStep reader posStr st r = .ok st') :
    st'.Inv ∧ st'.usedStacks = r.usedAfter reader st.usedStacks ∧
      documentOrder st'.lines = documentOrder st.lines ++ r.created reader posStr st.usedStacks ∧
      StepNav reader r st st' ∧ ∀ x ∈ r.created reader posStr st.usedStacks, x.NotBlank := by
  unfold deepStep at h
  have hlines : r.2.map Prod.fst = r.lines := rfl
  simp only [hlines] at h
  have hheading : r.isHeading = !(r.lines.any fun l => l.segmentCode.isSome) := by
    simp [Run.isHeading, List.not_any_eq_all_not]
  unfold Run.created Run.usedAfter
  by_cases hh : r.isHeading = true
  · rw [← hheading, hh] at h
    cases h
    simp [hh, hinv, StepNav, Run.isUsed]
  · rw [← hheading, if_neg hh] at h
    have hne : r.2 ≠ [] := by
      intro hn
      simp [Run.isHeading, Run.lines, hn] at hh
    simp only [bind, Except.bind] at h
    split at h
    · cases h
    · rename_i v hv
      obtain ⟨h1, h2⟩ := lookupStack_ok (pos := v.1) (stk := v.2) hne hv
      rw [h1, h2] at h
      simp only [Bool.not_eq_true] at hh
      simp only [hh, Bool.false_eq_true, if_false, Bool.false_or]
      by_cases hd : r.hasDataElement = true
      · simp only [hd, if_true]
        have hd' := hd
        unfold Run.hasDataElement at hd'
        rw [if_pos hd'] at h
        unfold dataElementStep at h
        unfold Run.createdDataElement
        by_cases hx : r.hasExpression = true
        · have hx' := hx
          unfold Run.hasExpression at hx'
          simp only [hx', Bool.not_true, Bool.false_eq_true, if_false, bind, Except.bind] at h
          simp only [hx, if_true]
          split at h
          · cases h
          · rename_i de hde
            rw [hde]
            rcases hinv with hempty | ⟨hroot, p, init, g, ss, s, hb, hdeh⟩
            · rw [hempty.dataElementsHere] at h; cases h
            · rw [hdeh] at h
              cases h
              obtain ⟨pre, g', h1, h2, h3, h4, h5, h6⟩ := modifySegments_built hb
                (fun ss' => ss'.modify ss.length fun s => { s with dataElements := s.dataElements ++ [de] })
              rw [modify_concat] at h5
              refine ⟨Or.inr ⟨hroot, p, init, g', ss, _, ⟨h3, h4, h5, hb.sgHere, hb.segmentsHere, hb.parents⟩, rfl⟩,
                rfl, ?_, ⟨?_, Or.inl ⟨Or.inl (by simp [hd]), h6, rfl⟩⟩,
                by simpa using merge_notBlank hde⟩
              · simp only [h2, h1, modify_concat]
                simp [Segment.docItems, Segment.header]
              · simp [Run.isUsed, hh, hd, hx]
        · have hx' := hx
          unfold Run.hasExpression at hx'
          simp only [Bool.not_eq_true] at hx'
          simp only [hx', Bool.not_false, if_true, Except.ok.injEq] at h
          subst h
          simp [hinv, hx, StepNav, Run.isUsed, hd, hh]
      · have hd' := hd
        unfold Run.hasDataElement at hd'
        rw [if_neg hd'] at h
        simp only [hd, Bool.false_eq_true, if_false]
        unfold segmentStep at h
        cases hf : r.lines.head? with
        | none => rw [hf] at h; cases h
        | some first =>
          rw [hf] at h
          simp only [bind, Except.bind] at h
          split at h
          · cases h
          · rename_i last hlast
            split at h
            · cases h
            · rename_i st1 hst1
              have hcs : createSegment posStr r.lines first r.location (r.stack reader) st1 = .ok st' := by
                split at h
                · cases h
                · split at h
                  · cases h
                  · exact h
              rcases maybeOpenGroup_ok hinv hf (pyLast_ok hlast) hst1 with ⟨hno, rfl⟩ |
                ⟨path, e, g, q, l, st0, hpath, hnot, he, hblank, rfl, rfl, hins0, hins, hroot, hnav⟩
              · simp only [hno, Option.toList_none, List.append_nil]
                have hog : r.openedGroup reader st1.usedStacks = none := by simp [Run.openedGroup, hno]
                rw [hog]
                rcases hinv with hempty | ⟨hroot, p, init, g, ss, s, hb, hdeh⟩
                · obtain ⟨hnone, rfl⟩ := createSegment_unbuilt hempty.segmentsHere hcs
                  refine ⟨Or.inl hempty, rfl, ?_, ⟨?_, Or.inl ⟨Or.inr hno, rfl, rfl⟩⟩, ?_⟩
                  · simp [Run.createdSegment, firstExpression_eq, hnone]
                  · simp [Run.isUsed, hd, firstExpression_eq, hnone]
                  · simp [Run.createdSegment, firstExpression_eq, hnone]
                · by_cases hx : r.firstExpression = none
                  · have := createSegment_none hx hcs
                    subst this
                    refine ⟨Or.inr ⟨hroot, p, init, g, ss, s, hb, hdeh⟩, rfl, ?_, ⟨?_, Or.inl ⟨Or.inr hno, rfl, rfl⟩⟩,
                      ?_⟩
                    · simp [Run.createdSegment, hx]
                    · simp [Run.isUsed, hd, hx]
                    · simp [Run.createdSegment, hx]
                  · obtain ⟨⟨s', g', b1⟩, b2, b3, b4, b5, b6, b7⟩ := createSegment_some hb hf hx hcs
                    exact ⟨Or.inr ⟨by rw [b3]; exact hroot, p, init, g', ss ++ [s], s', b1, b2⟩, b3, by simpa using b5,
                      ⟨by rw [b4]; simp [Run.isUsed, hh, hd, Option.isSome_iff_ne_none, hx],
                      Or.inl ⟨Or.inr hno, b6, by rw [b1.sgHere, hb.sgHere]⟩⟩, by simpa using b7⟩
              · have hb := hins.builtG rfl rfl
                have hdoc := hins.docOrder rfl rfl
                have hx : r.firstExpression ≠ none := by
                  rw [firstExpression_eq]
                  cases hl : r.lines with
                  | nil => rw [hl] at hf; cases hf
                  | cons x xs =>
                    rw [hl] at hf
                    cases hf
                    have ht : truthy first.ahbExpression = true := by
                      rw [he]
                      cases e with
                      | nil => simp [isNotBlank, strip, lstrip, rstrip] at hblank
                      | cons c e => rfl
                    rw [List.find?_cons, ht]
                    simp [he]
                obtain ⟨⟨s', g', b1⟩, b2, b3, b4, b5, b6, b7⟩ := createSegment_some hb hf hx hcs
                have hused : r.isUsed = true := by simp [Run.isUsed, hh, hd, Option.isSome_iff_ne_none, hx]
                refine ⟨Or.inr ⟨by rw [b3]; exact hroot, q, l, g', [], s', b1, b2⟩, ?_, ?_, ⟨by rw [b4, hused]; rfl,
                  Or.inr ⟨by simp [hh, hd], hused, path, hpath, q, l.length, hnav, ?_, b1.sgHere⟩⟩, ?_⟩
                · rw [b3, hins.used, hpath]; rfl
                · rw [b5, hdoc]
                  simp [Run.openedGroup, hpath, hf, he, trim_eq, SegmentGroup.header, SegmentGroup.discriminator,
                    SegmentGroup.ahbExpression, SegmentGroup.ahbLineIndex]
                · rw [b6, hins.lines]
                  obtain ⟨pre, a1, a2⟩ := hins.spine.addresses
                  rw [a2, a1, groupAddresses_concat, addresses_eq]
                  simp [children, SegmentGroup.segmentGroups, groupAddresses_eq]
                · intro x hx
                  rcases List.mem_append.1 hx with hx | hx
                  · simp only [Run.openedGroup, hpath, hf, he, trim_eq, Option.toList_some, List.mem_singleton] at hx
                    subst hx
                    exact (notBlank_iff _).1 hblank
                  · exact b7 x hx

theorem deepFold_ok {reader : MigLookup} {posStr} (runs : List Run) {st st' : DeepState} (hinv : st.Inv)
    (h : runs.foldlM (deepStep reader posStr) st = .ok st') :
    st'.Inv ∧ documentOrder st'.lines = documentOrder st.lines ++ createdItems reader posStr st.usedStacks runs ∧
      (∀ x ∈ createdItems reader posStr st.usedStacks runs, x.NotBlank) ∧
      (∃ more, st'.usedStacks = st.usedStacks ++ more) := by
  induction runs generalizing st with
  | nil => cases h; exact ⟨hinv, by simp [createdItems], by simp [createdItems], [], by simp⟩
  | cons r runs ih =>
    rw [List.foldlM_cons] at h
    simp only [bind, Except.bind] at h
    split at h
    · cases h
    · rename_i st1 hst1
      obtain ⟨h1, h2, h3, _, hb⟩ := deepStep_ok hinv hst1
      obtain ⟨h4, h5, h6, more, h7⟩ := ih h1 h
      refine ⟨h4, ?_, ?_, ?_⟩
      · rw [h5, h3, h2, createdItems, List.append_assoc]
      · intro x hx
        rw [createdItems, List.mem_append] at hx
        rcases hx with hx | hx
        · exact hb x hx
        · rw [← h2] at hx; exact h6 x hx
      · rw [h7, h2, Run.usedAfter]
        split
        · exact ⟨_, rfl⟩
        · exact ⟨_, List.append_assoc _ _ _⟩

theorem DeepState.init_inv : DeepState.init.Inv := Or.inl ⟨rfl, rfl, rfl, rfl, rfl, rfl⟩

/-- unfolding of a successful `to_deep_ahb` -/
theorem toDeepAhb_ok {reader : MigLookup} {posStr flat sgh res} (h : toDeepAhb reader posStr flat sgh = .ok res) :
    ∃ located st, determineLocations sgh flat.lines = .ok located ∧
      (runsOf located).foldlM (deepStep reader posStr) DeepState.init = .ok st ∧
      res = ({ flat with ahbMeta := { flat.ahbMeta with mausVersion := some mausVersion } },
        { ahbMeta := { flat.ahbMeta with mausVersion := some mausVersion }, lines := st.lines }) := by
  simp only [toDeepAhb, bind, Except.bind] at h
  split at h
  · cases h
  · rename_i located hl
    split at h
    · cases h
    · rename_i st hst
      cases h
      exact ⟨located, st, hl, hst, rfl⟩

end Verif
